import Verif.Release.DateTheorems
/-
C250: Autoware is launched with the arguments of the scenario.
-/
namespace Verif.Release

theorem meant_app (name : String) (l r : List Argument) (v : Text) (h : meant name r = some v) : meant name (l ++ r) = some v := by
  unfold meant at *
  rw [List.filter_append, List.getLast?_append]
  cases k : (r.filter (·.name = name)).getLast? with
  | none => rw [k] at h; cases h
  | some a => rw [k] at h; simpa using h

/-- C250: whatever arguments the user gives, those of the scenario are the ones that count: the map and its files, the models, the
configuration of the display, the clock, and how the position is found. -/
theorem C250_scenario (c : Settings) :
    meant "map_path" (arguments c) = some c.mapPath ∧ meant "lanelet2_map_file" (arguments c) = some c.laneletFile ∧
    meant "pointcloud_map_file" (arguments c) = some c.pointcloudFile ∧ meant "sensor_model" (arguments c) = some c.sensorModel ∧
    meant "vehicle_model" (arguments c) = some c.vehicleModel ∧ meant "rviz_config" (arguments c) = some c.rviz ∧
    meant "scenario_simulation" (arguments c) = some ['t', 'r', 'u', 'e'] ∧ meant "use_foa" (arguments c) = some ['f', 'a', 'l', 's', 'e'] ∧
    meant "use_sim_time" (arguments c) = some (if c.simTime then ['t', 'r', 'u', 'e'] else ['f', 'a', 'l', 's', 'e']) ∧
    meant "localization_sim_mode" (arguments c) = some (if c.localization then ['a', 'p', 'i'] else ['p', 'o', 's', 'e', '_', 't', 'w', 'i', 's', 't', '_', 'e', 's', 't', 'i', 'm', 'a', 't', 'o', 'r']) := by
  refine ⟨?_, ?_, ?_, ?_, ?_, ?_, ?_, ?_, ?_, ?_⟩ <;>
  · unfold arguments
    dsimp only
    refine meant_app _ _ _ _ ?_
    simp [meant]
    try simp only [yes, no, api, estimator]

/-- C250: an id of the vehicle other than "default" counts, whatever the user gives. -/
theorem C250_vehicle (c : Settings) (h : c.vehicleId ≠ ['d', 'e', 'f', 'a', 'u', 'l', 't']) (k : c.vehicleId ≠ []) :
    meant "vehicle_id" (arguments c) = some c.vehicleId := by
  unfold arguments
  dsimp only
  rw [if_pos ⟨h, k⟩]
  simp [meant, List.filter_append]

/-- C250: otherwise that of the user counts, if they give one; and so does every argument with a name that is not one of the scenario's. -/
theorem C250_given (c : Settings) (name : String)
    (h : name ∉ ["map_path", "lanelet2_map_file", "pointcloud_map_file", "sensor_model", "vehicle_model", "rviz_config", "scenario_simulation",
      "use_foa", "perception/enable_traffic_light", "use_sim_time", "localization_sim_mode"])
    (k : name = "vehicle_id" → c.vehicleId = ['d', 'e', 'f', 'a', 'u', 'l', 't'] ∨ c.vehicleId = []) :
    meant name (arguments c) = meant name c.given := by
  simp only [List.mem_cons, List.not_mem_nil, or_false, not_or] at h
  obtain ⟨h1, h2, h3, h4, h5, h6, h7, h8, h9, h10, h11⟩ := h
  unfold arguments meant
  dsimp only
  split
  · next v =>
    have n : ¬ "vehicle_id" = name := by
      intro e
      rcases k e.symm with q | q
      · exact v.1 q
      · exact v.2 q
    simp [List.filter_append, n, Ne.symm h1, Ne.symm h2, Ne.symm h3, Ne.symm h4, Ne.symm h5, Ne.symm h6, Ne.symm h7, Ne.symm h8, Ne.symm h9, Ne.symm h10, Ne.symm h11]
  · simp [List.filter_append, Ne.symm h1, Ne.symm h2, Ne.symm h3, Ne.symm h4, Ne.symm h5, Ne.symm h6, Ne.symm h7, Ne.symm h8, Ne.symm h9, Ne.symm h10, Ne.symm h11]

/-- C250: the recognition of traffic lights is turned on exactly for the releases of 6 September 2023 and later. -/
theorem C250_lights (c : Settings) (d : Day) (hd : d.Written) (h : c.architecture = release d) :
    meant "perception/enable_traffic_light" (arguments c) =
      some (if d.earlier ⟨2023, 9, 6⟩ then ['f', 'a', 'l', 's', 'e'] else ['t', 'r', 'u', 'e']) := by
  have w : Day.Written ⟨2023, 9, 6⟩ := by unfold Day.Written; decide
  unfold arguments
  apply meant_app
  rw [h, is20230906]
  simp only [upTo_release w hd]
  by_cases e : d.earlier ⟨2023, 9, 6⟩ <;> simp [meant, e, yes, no]

/-- C250: Autoware is launched, with these arguments, exactly if the architecture contains "awf/universe" and it is to be launched; if the
architecture does not, the Ego is refused even if nothing is to be launched. -/
theorem C250_launch (c : Settings) :
    ((∃ a b, c.architecture = a ++ ['a', 'w', 'f', '/', 'u', 'n', 'i', 'v', 'e', 'r', 's', 'e'] ++ b) →
      launch c = if c.launch then .launched c.package c.file (arguments c) else .nothing) ∧
    ((¬ ∃ a b, c.architecture = a ++ ['a', 'w', 'f', '/', 'u', 'n', 'i', 'v', 'e', 'r', 's', 'e'] ++ b) → launch c = .refused) := by
  constructor
  · intro h
    have := (has_iff _).mpr h
    unfold launch
    rw [if_pos this]
  · intro h
    have : ¬ has awf c.architecture = true := fun k => h ((has_iff _).mp k)
    unfold launch
    rw [if_neg this]

/-- Settings as of the default. -/
example : launch ⟨release ⟨2024, 6, 5⟩, [⟨"map_path", ['x']⟩, ⟨"rviz", ['n']⟩], usual, ['m'], ['l'], ['p'], ['s'], ['v'], ['r'], false, true, true, ['k'], ['f']⟩ ≠ .refused ∧
    meant "map_path" (arguments ⟨release ⟨2024, 6, 5⟩, [⟨"map_path", ['x']⟩, ⟨"rviz", ['n']⟩], usual, ['m'], ['l'], ['p'], ['s'], ['v'], ['r'], false, true, true, ['k'], ['f']⟩) = some ['m'] ∧
    meant "rviz" (arguments ⟨release ⟨2024, 6, 5⟩, [⟨"map_path", ['x']⟩, ⟨"rviz", ['n']⟩], usual, ['m'], ['l'], ['p'], ['s'], ['v'], ['r'], false, true, true, ['k'], ['f']⟩) = some ['n'] := by
  refine ⟨?_, (C250_scenario _).1, ?_⟩
  · exact (C248_dated_partial ⟨2024, 6, 5⟩ _).2 rfl
  · rw [C250_given _ _ (by decide) (by decide)]; decide +kernel

end Verif.Release
