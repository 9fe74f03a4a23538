import Verif.Enum.Model

/-! The enumerations of the OpenSCENARIO standard, as the schema has them (it is quoted in the header of each
enumeration), what of them this simulator says it does not support, and what it has besides. -/
namespace Verif.Enum

/-- The names of the schema: the comment at the head of include/openscenario_interpreter/syntax/<name>.hpp. -/
def Which.standard : Which → List String
  | .conditionEdge => ["rising", "falling", "risingOrFalling", "none"]
  | .coordinateSystem => ["entity", "lane", "road", "trajectory", "world"]
  | .dynamicsDimension => ["rate", "time", "distance"]
  | .dynamicsShape => ["linear", "cubic", "sinusoidal", "step"]
  | .followingMode => ["follow", "position"]
  | .fractionalCloudCover => ["zeroOktas", "oneOktas", "twoOktas", "threeOktas", "fourOktas", "fiveOktas",
      "sixOktas", "sevenOktas", "eightOktas", "nineOktas"]
  | .miscObjectCategory => ["barrier", "building", "crosswalk", "gantry", "none", "obstacle",
      "parkingSpace", "patch", "pole", "railing", "roadMark", "soundBarrier", "streetLamp",
      "trafficIsland", "tree", "vegetation", "wind"]
  | .objectType => ["pedestrian", "vehicle", "miscellaneous"]
  | .parameterType => ["integer", "double", "string", "unsignedInt", "unsignedShort", "boolean", "dateTime"]
  | .pedestrianCategory => ["animal", "pedestrian", "wheelchair"]
  | .precipitationType => ["dry", "rain", "snow"]
  | .priority => ["overwrite", "override", "parallel", "skip"]
  | .referenceContext => ["relative", "absolute"]
  | .relativeDistanceType => ["lateral", "longitudinal", "cartesianDistance", "euclidianDistance"]
  | .routeStrategy => ["fastest", "shortest", "leastIntersections", "random"]
  | .routingAlgorithm => ["assignedRoute", "fastest", "leastIntersections", "shortest", "undefined"]
  | .rule => ["equalTo", "greaterThan", "lessThan", "greaterOrEqual", "lessOrEqual", "notEqualTo"]
  | .speedTargetValueType => ["delta", "factor"]
  | .storyboardElementState => ["startTransition", "endTransition", "stopTransition", "skipTransition",
      "completeState", "runningState", "standbyState"]
  | .storyboardElementType => ["story", "act", "maneuver", "event", "action", "maneuverGroup"]
  | .triggeringEntitiesRule => ["any", "all"]
  | .vehicleCategory => ["bicycle", "bus", "car", "motorbike", "semitrailer", "trailer", "train", "tram",
      "truck", "van"]
  | .wetness => ["dry", "moist", "wetWithPuddles", "lowFlooded", "highFlooded"]

/-- Names of the schema that are not supported. -/
def Which.missing : Which → List String
  | .coordinateSystem => ["road", "trajectory", "world"]
  | .dynamicsShape => ["sinusoidal"]
  | .miscObjectCategory => ["barrier", "building", "crosswalk", "gantry", "none", "parkingSpace", "patch",
      "pole", "railing", "roadMark", "soundBarrier", "streetLamp", "trafficIsland", "tree", "vegetation",
      "wind"]
  | .pedestrianCategory => ["animal", "wheelchair"]
  | .referenceContext => ["absolute"]
  | .routeStrategy => ["fastest", "leastIntersections", "random"]
  | _ => []

/-- Names that are not in the schema. -/
def Which.besides : Which → List String
  | .conditionEdge => ["sticky"]
  | .objectType => ["external"]
  | _ => []

/-- The enumerator a name stands for: of the same name, but for deprecated names and for two enumerations whose
enumerators are written otherwise. -/
def Which.meaning (w : Which) (s : String) : String :=
  match w, s with
  | .parameterType, "integer" => "INTEGER"
  | .parameterType, "double" => "DOUBLE"
  | .parameterType, "string" => "STRING"
  | .parameterType, "unsignedInt" => "UNSIGNED_INT"
  | .parameterType, "unsignedShort" => "UNSIGNED_SHORT"
  | .parameterType, "boolean" => "BOOLEAN"
  | .parameterType, "dateTime" => "DATE_TIME"
  | .priority, "overwrite" => "override"
  | .relativeDistanceType, "cartesianDistance" => "euclidianDistance"
  | .routingAlgorithm, "assignedRoute" => "assigned_route"
  | .routingAlgorithm, "leastIntersections" => "least_intersections"
  | _, s => s

/-- The names a scenario may use. -/
def Which.Name (w : Which) (s : String) : Prop := (s ∈ w.standard ∧ s ∉ w.missing) ∨ s ∈ w.besides

/-- The enumerators of names a scenario may use. -/
def Which.Value (w : Which) (v : String) : Prop := ∃ s, w.Name s ∧ v = w.meaning s

/-- The value that stands first, and so has the number zero, which is what an enumeration that nobody sets is. -/
def Which.first : Which → String
  | .conditionEdge => "none"
  | .coordinateSystem => "entity"
  | .dynamicsDimension => "rate"
  | .dynamicsShape => "linear"
  | .followingMode => "follow"
  | .fractionalCloudCover => "zeroOktas"
  | .miscObjectCategory => "none"
  | .objectType => "vehicle"
  | .parameterType => "BOOLEAN"
  | .pedestrianCategory => "pedestrian"
  | .precipitationType => "dry"
  | .priority => "skip"
  | .referenceContext => "relative"
  | .relativeDistanceType => "longitudinal"
  | .routeStrategy => "shortest"
  | .routingAlgorithm => "undefined"
  | .rule => "equalTo"
  | .speedTargetValueType => "delta"
  | .storyboardElementState => "standbyState"
  | .storyboardElementType => "act"
  | .triggeringEntitiesRule => "all"
  | .vehicleCategory => "car"
  | .wetness => "dry"

end Verif.Enum
