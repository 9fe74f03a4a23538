/-
Model of the enumerations of OpenSCENARIO, in /repo/openscenario/openscenario_interpreter:
  AT = include/openscenario_interpreter/reader/attribute.hpp
  src/syntax/<name>.cpp          operator>> and operator<< of each enumeration
  include/openscenario_interpreter/syntax/<name>.hpp   the enumerators
and of boost::lexical_cast for a type that is read by operator>>: the stream does not skip white space, the
operator must not leave it failed, and nothing may be left in it.

A value is given by the name of its enumerator. Not modelled: texts of errors, `${...}` and `$(...)` (C115), a
value outside of the enumeration.
-/
namespace Verif.Enum

/-- The enumerations. -/
inductive Which where
  | conditionEdge | coordinateSystem | dynamicsDimension | dynamicsShape | followingMode
  | fractionalCloudCover | miscObjectCategory | objectType | parameterType | pedestrianCategory
  | precipitationType | priority | referenceContext | relativeDistanceType | routeStrategy
  | routingAlgorithm | rule | speedTargetValueType | storyboardElementState | storyboardElementType
  | triggeringEntitiesRule | vehicleCategory | wetness
deriving DecidableEq, Repr

/-- What becomes of a text. -/
inductive Out where
  | value (v : String)
  | unsupported
  | unexpected
  | invalid
  | undeclared
deriving DecidableEq, Repr

/-- The texts that operator>> accepts, in the order in which it compares them, with the enumerator it sets. -/
def Which.accepted : Which → List (String × String)
  -- src/syntax/condition_edge.cpp 22-44
  | .conditionEdge => [("none", "none"), ("sticky", "sticky"), ("rising", "rising"),
      ("falling", "falling"), ("risingOrFalling", "risingOrFalling")]
  -- src/syntax/coordinate_system.cpp 26-56
  | .coordinateSystem => [("entity", "entity"), ("lane", "lane")]
  -- src/syntax/dynamics_dimension.cpp 26-54
  | .dynamicsDimension => [("rate", "rate"), ("time", "time"), ("distance", "distance")]
  -- src/syntax/dynamics_shape.cpp 22-52
  | .dynamicsShape => [("cubic", "cubic"), ("linear", "linear"), ("step", "step")]
  -- src/syntax/following_mode.cpp 26-37
  | .followingMode => [("follow", "follow"), ("position", "position")]
  -- src/syntax/fractional_cloud_cover.cpp 26-53
  | .fractionalCloudCover => [("zeroOktas", "zeroOktas"), ("oneOktas", "oneOktas"),
      ("twoOktas", "twoOktas"), ("threeOktas", "threeOktas"), ("fourOktas", "fourOktas"),
      ("fiveOktas", "fiveOktas"), ("sixOktas", "sixOktas"), ("sevenOktas", "sevenOktas"),
      ("eightOktas", "eightOktas"), ("nineOktas", "nineOktas")]
  -- src/syntax/misc_object_category.cpp 27-70
  | .miscObjectCategory => [("obstacle", "obstacle")]
  -- src/syntax/object_type.cpp 28-49
  | .objectType => [("vehicle", "vehicle"), ("miscellaneous", "miscellaneous"),
      ("pedestrian", "pedestrian"), ("external", "external")]
  -- src/syntax/parameter_type.cpp 26-50
  | .parameterType => [("integer", "INTEGER"), ("double", "DOUBLE"), ("string", "STRING"),
      ("unsignedInt", "UNSIGNED_INT"), ("unsignedShort", "UNSIGNED_SHORT"), ("boolean", "BOOLEAN"),
      ("dateTime", "DATE_TIME")]
  -- src/syntax/pedestrian_category.cpp 24-53
  | .pedestrianCategory => [("pedestrian", "pedestrian")]
  -- src/syntax/precipitation_type.cpp 26-46
  | .precipitationType => [("dry", "dry"), ("rain", "rain"), ("snow", "snow")]
  -- src/syntax/priority.cpp 26-51
  | .priority => [("parallel", "parallel"), ("skip", "skip"), ("override", "override"),
      ("overwrite", "override")]
  -- src/syntax/reference_context.cpp 26-54
  | .referenceContext => [("relative", "relative")]
  -- src/syntax/relative_distance_type.cpp 32-58
  | .relativeDistanceType => [("longitudinal", "longitudinal"), ("lateral", "lateral"),
      ("euclidianDistance", "euclidianDistance"), ("cartesianDistance", "euclidianDistance")]
  -- src/syntax/route_strategy.cpp 26-56
  | .routeStrategy => [("shortest", "shortest")]
  -- src/syntax/routing_algorithm.cpp 28-53
  | .routingAlgorithm => [("assignedRoute", "assigned_route"), ("fastest", "fastest"),
      ("leastIntersections", "least_intersections"), ("shortest", "shortest"), ("undefined", "undefined")]
  -- src/syntax/rule.cpp 28-51
  | .rule => [("equalTo", "equalTo"), ("greaterThan", "greaterThan"), ("lessThan", "lessThan"),
      ("greaterOrEqual", "greaterOrEqual"), ("lessOrEqual", "lessOrEqual"), ("notEqualTo", "notEqualTo")]
  -- src/syntax/speed_target_value_type.cpp 28-47
  | .speedTargetValueType => [("delta", "delta"), ("factor", "factor")]
  -- src/syntax/storyboard_element_state.cpp 26-50
  | .storyboardElementState => [("startTransition", "startTransition"), ("endTransition", "endTransition"),
      ("stopTransition", "stopTransition"), ("skipTransition", "skipTransition"),
      ("completeState", "completeState"), ("runningState", "runningState"), ("standbyState", "standbyState")]
  -- src/syntax/storyboard_element_type.cpp 22-45
  | .storyboardElementType => [("act", "act"), ("action", "action"), ("event", "event"),
      ("maneuver", "maneuver"), ("maneuverGroup", "maneuverGroup"), ("story", "story")]
  -- src/syntax/triggering_entities_rule.cpp 43-62
  | .triggeringEntitiesRule => [("all", "all"), ("any", "any")]
  -- src/syntax/vehicle_category.cpp 24-51
  | .vehicleCategory => [("bicycle", "bicycle"), ("bus", "bus"), ("car", "car"),
      ("motorbike", "motorbike"), ("truck", "truck"), ("semitrailer", "semitrailer"),
      ("trailer", "trailer"), ("train", "train"), ("tram", "tram"), ("van", "van")]
  -- src/syntax/wetness.cpp 26-48
  | .wetness => [("dry", "dry"), ("moist", "moist"), ("wetWithPuddles", "wetWithPuddles"),
      ("lowFlooded", "lowFlooded"), ("highFlooded", "highFlooded")]

/-- The texts that operator>> knows and does not support. -/
def Which.refused : Which → List String
  -- src/syntax/condition_edge.cpp 22-44
  | .conditionEdge => []
  -- src/syntax/coordinate_system.cpp 26-56
  | .coordinateSystem => ["road", "trajectory"]
  -- src/syntax/dynamics_dimension.cpp 26-54
  | .dynamicsDimension => []
  -- src/syntax/dynamics_shape.cpp 22-52
  | .dynamicsShape => ["sinusoidal"]
  -- src/syntax/following_mode.cpp 26-37
  | .followingMode => []
  -- src/syntax/fractional_cloud_cover.cpp 26-53
  | .fractionalCloudCover => []
  -- src/syntax/misc_object_category.cpp 27-70
  | .miscObjectCategory => ["barrier", "building", "crosswalk", "gantry", "none", "parkingSpace", "patch",
      "pole", "railing", "roadMark", "soundBarrier", "streetLamp", "trafficIsland", "tree", "vegetation",
      "wind"]
  -- src/syntax/object_type.cpp 28-49
  | .objectType => []
  -- src/syntax/parameter_type.cpp 26-50
  | .parameterType => []
  -- src/syntax/pedestrian_category.cpp 24-53
  | .pedestrianCategory => ["wheelchair", "animal"]
  -- src/syntax/precipitation_type.cpp 26-46
  | .precipitationType => []
  -- src/syntax/priority.cpp 26-51
  | .priority => []
  -- src/syntax/reference_context.cpp 26-54
  | .referenceContext => ["absolute"]
  -- src/syntax/relative_distance_type.cpp 32-58
  | .relativeDistanceType => []
  -- src/syntax/route_strategy.cpp 26-56
  | .routeStrategy => ["fastest", "leastIntersections", "random"]
  -- src/syntax/routing_algorithm.cpp 28-53
  | .routingAlgorithm => []
  -- src/syntax/rule.cpp 28-51
  | .rule => []
  -- src/syntax/speed_target_value_type.cpp 28-47
  | .speedTargetValueType => []
  -- src/syntax/storyboard_element_state.cpp 26-50
  | .storyboardElementState => []
  -- src/syntax/storyboard_element_type.cpp 22-45
  | .storyboardElementType => []
  -- src/syntax/triggering_entities_rule.cpp 43-62
  | .triggeringEntitiesRule => []
  -- src/syntax/vehicle_category.cpp 24-51
  | .vehicleCategory => []
  -- src/syntax/wetness.cpp 26-48
  | .wetness => []

/-- What operator<< writes for an enumerator. -/
def Which.printed : Which → List (String × String)
  -- src/syntax/condition_edge.cpp 46-64
  | .conditionEdge => [("rising", "rising"), ("falling", "falling"),
      ("risingOrFalling", "risingOrFalling"), ("none", "none"), ("sticky", "sticky")]
  -- src/syntax/coordinate_system.cpp 58-75
  | .coordinateSystem => [("entity", "entity"), ("lane", "lane"), ("road", "road"),
      ("trajectory", "trajectory")]
  -- src/syntax/dynamics_dimension.cpp 56-72
  | .dynamicsDimension => [("rate", "rate"), ("time", "time"), ("distance", "distance")]
  -- src/syntax/dynamics_shape.cpp 54-71
  | .dynamicsShape => [("linear", "linear"), ("cubic", "cubic"), ("sinusoidal", "sinusoidal"),
      ("step", "step")]
  -- src/syntax/following_mode.cpp 39-48
  | .followingMode => [("follow", "follow"), ("position", "position")]
  -- src/syntax/fractional_cloud_cover.cpp 55-78
  | .fractionalCloudCover => [("zeroOktas", "zeroOktas"), ("oneOktas", "oneOktas"),
      ("twoOktas", "twoOktas"), ("threeOktas", "threeOktas"), ("fourOktas", "fourOktas"),
      ("fiveOktas", "fiveOktas"), ("sixOktas", "sixOktas"), ("sevenOktas", "sevenOktas"),
      ("eightOktas", "eightOktas"), ("nineOktas", "nineOktas")]
  -- src/syntax/misc_object_category.cpp 72-102
  | .miscObjectCategory => [("barrier", "barrier"), ("building", "building"), ("crosswalk", "crosswalk"),
      ("gantry", "gantry"), ("none", "none"), ("obstacle", "obstacle"), ("parkingSpace", "parkingSpace"),
      ("patch", "patch"), ("pole", "pole"), ("railing", "railing"), ("roadMark", "roadMark"),
      ("soundBarrier", "soundBarrier"), ("streetLamp", "streetLamp"), ("trafficIsland", "trafficIsland"),
      ("tree", "tree"), ("vegetation", "vegetation"), ("wind", "wind")]
  -- src/syntax/object_type.cpp 51-69
  | .objectType => [("vehicle", "vehicle"), ("miscellaneous", "miscellaneous"),
      ("pedestrian", "pedestrian"), ("external", "external")]
  -- src/syntax/parameter_type.cpp 52-72
  | .parameterType => [("INTEGER", "integer"), ("DOUBLE", "double"), ("STRING", "string"),
      ("UNSIGNED_INT", "unsignedInt"), ("UNSIGNED_SHORT", "unsignedShort"), ("BOOLEAN", "boolean"),
      ("DATE_TIME", "dateTime")]
  -- src/syntax/pedestrian_category.cpp 55-71
  | .pedestrianCategory => [("pedestrian", "pedestrian"), ("wheelchair", "wheelchair"), ("animal", "animal")]
  -- src/syntax/precipitation_type.cpp 48-64
  | .precipitationType => [("dry", "dry"), ("rain", "rain"), ("snow", "snow")]
  -- src/syntax/priority.cpp 53-69
  | .priority => [("skip", "skip"), ("parallel", "parallel"), ("override", "override")]
  -- src/syntax/reference_context.cpp 56-71
  | .referenceContext => [("absolute", "absolute"), ("relative", "relative")]
  -- src/syntax/relative_distance_type.cpp 60-76
  | .relativeDistanceType => [("longitudinal", "longitudinal"), ("lateral", "lateral"),
      ("euclidianDistance", "euclidianDistance")]
  -- src/syntax/route_strategy.cpp 58-75
  | .routeStrategy => [("fastest", "fastest"), ("shortest", "shortest"),
      ("leastIntersections", "leastIntersections"), ("random", "random")]
  -- src/syntax/routing_algorithm.cpp 55-71
  | .routingAlgorithm => [("assigned_route", "assignedRoute"), ("fastest", "fastest"),
      ("least_intersections", "leastIntersections"), ("shortest", "shortest"), ("undefined", "undefined")]
  -- src/syntax/rule.cpp 53-72
  | .rule => [("equalTo", "equalTo"), ("greaterThan", "greaterThan"), ("lessThan", "lessThan"),
      ("greaterOrEqual", "greaterOrEqual"), ("lessOrEqual", "lessOrEqual"), ("notEqualTo", "notEqualTo")]
  -- src/syntax/speed_target_value_type.cpp 49-64
  | .speedTargetValueType => [("delta", "delta"), ("factor", "factor")]
  -- src/syntax/storyboard_element_state.cpp 52-82
  | .storyboardElementState => [("startTransition", "startTransition"), ("endTransition", "endTransition"),
      ("stopTransition", "stopTransition"), ("skipTransition", "skipTransition"),
      ("completeState", "completeState"), ("runningState", "runningState"), ("standbyState", "standbyState")]
  -- src/syntax/storyboard_element_type.cpp 47-66
  | .storyboardElementType => [("act", "act"), ("action", "action"), ("event", "event"),
      ("maneuver", "maneuver"), ("maneuverGroup", "maneuverGroup"), ("story", "story")]
  -- src/syntax/triggering_entities_rule.cpp 64-79
  | .triggeringEntitiesRule => [("all", "all"), ("any", "any")]
  -- src/syntax/vehicle_category.cpp 53-76
  | .vehicleCategory => [("bicycle", "bicycle"), ("bus", "bus"), ("car", "car"),
      ("motorbike", "motorbike"), ("semitrailer", "semitrailer"), ("trailer", "trailer"),
      ("train", "train"), ("tram", "tram"), ("truck", "truck"), ("van", "van")]
  -- src/syntax/wetness.cpp 50-68
  | .wetness => [("dry", "dry"), ("moist", "moist"), ("wetWithPuddles", "wetWithPuddles"),
      ("lowFlooded", "lowFlooded"), ("highFlooded", "highFlooded")]

/-- The enumerators, in order. -/
def Which.enumerators : Which → List String
  -- include/openscenario_interpreter/syntax/condition_edge.hpp 48-102
  | .conditionEdge => ["none", "rising", "falling", "risingOrFalling", "sticky"]
  -- include/openscenario_interpreter/syntax/coordinate_system.hpp 51-56
  | .coordinateSystem => ["entity", "lane", "road", "trajectory"]
  -- include/openscenario_interpreter/syntax/dynamics_dimension.hpp 46-55
  | .dynamicsDimension => ["rate", "time", "distance"]
  -- include/openscenario_interpreter/syntax/dynamics_shape.hpp 47-85
  | .dynamicsShape => ["linear", "cubic", "sinusoidal", "step"]
  -- include/openscenario_interpreter/syntax/following_mode.hpp 43-52
  | .followingMode => ["follow", "position"]
  -- include/openscenario_interpreter/syntax/fractional_cloud_cover.hpp 53-64
  | .fractionalCloudCover => ["zeroOktas", "oneOktas", "twoOktas", "threeOktas", "fourOktas", "fiveOktas",
      "sixOktas", "sevenOktas", "eightOktas", "nineOktas"]
  -- include/openscenario_interpreter/syntax/misc_object_category.hpp 64-84
  | .miscObjectCategory => ["none", "barrier", "building", "crosswalk", "gantry", "obstacle",
      "parkingSpace", "patch", "pole", "railing", "roadMark", "soundBarrier", "streetLamp",
      "trafficIsland", "tree", "vegetation", "wind"]
  -- include/openscenario_interpreter/syntax/object_type.hpp 45-51
  | .objectType => ["vehicle", "external", "miscellaneous", "pedestrian"]
  -- include/openscenario_interpreter/syntax/parameter_type.hpp 54-62
  | .parameterType => ["BOOLEAN", "DATE_TIME", "DOUBLE", "INTEGER", "STRING", "UNSIGNED_INT",
      "UNSIGNED_SHORT"]
  -- include/openscenario_interpreter/syntax/pedestrian_category.hpp 45-51
  | .pedestrianCategory => ["pedestrian", "animal", "wheelchair"]
  -- include/openscenario_interpreter/syntax/precipitation_type.hpp 44-44
  | .precipitationType => ["dry", "rain", "snow"]
  -- include/openscenario_interpreter/syntax/priority.hpp 53-77
  | .priority => ["skip", "parallel", "override"]
  -- include/openscenario_interpreter/syntax/reference_context.hpp 44-47
  | .referenceContext => ["relative", "absolute"]
  -- include/openscenario_interpreter/syntax/relative_distance_type.hpp 58-62
  | .relativeDistanceType => ["longitudinal", "lateral", "euclidianDistance"]
  -- include/openscenario_interpreter/syntax/route_strategy.hpp 45-50
  | .routeStrategy => ["shortest", "fastest", "leastIntersections", "random"]
  -- include/openscenario_interpreter/syntax/routing_algorithm.hpp 49-79
  | .routingAlgorithm => ["undefined", "assigned_route", "fastest", "least_intersections", "shortest"]
  -- include/openscenario_interpreter/syntax/rule.hpp 62-69
  | .rule => ["equalTo", "greaterThan", "lessThan", "greaterOrEqual", "lessOrEqual", "notEqualTo"]
  -- include/openscenario_interpreter/syntax/speed_target_value_type.hpp 45-59
  | .speedTargetValueType => ["delta", "factor"]
  -- include/openscenario_interpreter/syntax/storyboard_element_state.hpp 49-174
  | .storyboardElementState => ["standbyState", "runningState", "completeState", "startTransition",
      "endTransition", "stopTransition", "skipTransition"]
  -- include/openscenario_interpreter/syntax/storyboard_element_type.hpp 47-54
  | .storyboardElementType => ["act", "action", "event", "maneuver", "maneuverGroup", "story"]
  -- include/openscenario_interpreter/syntax/triggering_entities_rule.hpp 45-49
  | .triggeringEntitiesRule => ["all", "any", "none"]
  -- include/openscenario_interpreter/syntax/vehicle_category.hpp 52-65
  | .vehicleCategory => ["car", "bicycle", "bus", "motorbike", "semitrailer", "trailer", "train", "tram",
      "truck", "van"]
  -- include/openscenario_interpreter/syntax/wetness.hpp 48-54
  | .wetness => ["dry", "moist", "wetWithPuddles", "lowFlooded", "highFlooded"]

/-- White space of the classic locale. -/
def space (c : Char) : Bool :=
  c == ' ' || c == '\t' || c == '\n' || c == '\r' || c == '\x0b' || c == '\x0c'

/-- `is >> buffer` on a stream that does not skip white space: the text up to the first white space. -/
def token (s : String) : String := String.ofList (s.toList.takeWhile fun c => !space c)

/-- What is left in the stream. -/
def rest (s : String) : String := String.ofList (s.toList.dropWhile fun c => !space c)

/-- `operator>>`, and whether it leaves the stream failed, that is, without having read a character. Of all
enumerations only RoutingAlgorithm looks at that (routing_algorithm.cpp 30, 49-52) and sets `undefined`. -/
def Which.extract (w : Which) (s : String) : Out × Bool :=
  if w = .routingAlgorithm ∧ token s = "" then (.value "undefined", true)
  else
    match w.accepted.lookup (token s) with
    | some v => (.value v, decide (token s = ""))
    | none => (if token s ∈ w.refused then .unsupported else .unexpected, false)

/-- boost::lexical_cast<T>(s): an exception of operator>> goes through; else the stream must be good and
empty. -/
def Which.cast (w : Which) (s : String) : Out :=
  match w.extract s with
  | (.value v, failed) => if failed = false ∧ rest s = "" then .value v else .invalid
  | (e, _) => e

/-- AT 83-93: an empty text gives `T()`, the first enumerator; `$name` the text of a parameter; anything else
is taken literally. -/
def Which.attribute (w : Which) (scope : String → Option String) (s : String) : Out :=
  if s = "" then .value (w.enumerators.headD "")
  else if s.toList.head? = some '$' then
    match scope (String.ofList (s.toList.drop 1)) with
    | some t => w.cast t
    | none => .undeclared
  else w.cast s

/-- `operator<<`: the name of an enumerator, or an exception. -/
def Which.print (w : Which) (v : String) : Option String := w.printed.lookup v

end Verif.Enum
