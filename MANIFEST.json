{"claims": [
{"property": "C01", "status": "proved", "theorems": ["Verif.Storyboard.C01_life_cycle", "Verif.Storyboard.C01_no_silent_change"], "note": "heap model of the whole storyboard tree, arbitrary environment"},
{"property": "C02", "status": "proved", "theorems": ["Verif.Storyboard.C02_execution_bound", "Verif.Storyboard.C02_starts_bound", "Verif.Storyboard.C02_zero_executes_once"], "note": ""},
{"property": "C03", "status": "proved", "theorems": ["Verif.Storyboard.C03_complete_is_final", "Verif.Storyboard.C03_actions_only_while_running"], "note": ""},
{"property": "C04", "status": "proved", "theorems": ["Verif.Storyboard.C04_override", "Verif.Storyboard.C04_overridden_is_final", "Verif.Storyboard.C04_overridden_completes"], "note": ""},
{"property": "C05", "status": "proved", "theorems": ["Verif.Storyboard.C05_skip", "Verif.Storyboard.C05_stays_in_standby"], "note": ""},
{"property": "C06", "status": "proved", "theorems": ["Verif.Storyboard.C06_children_complete"], "note": ""},
{"property": "C07", "status": "partial", "theorems": ["Verif.Storyboard.C07_act_completes", "Verif.Storyboard.C07_storyboard_completes", "Verif.Storyboard.C07_descendants_partial", "Verif.Storyboard.C07_act_partial", "Verif.Storyboard.C07_violated"], "note": "the stopped element completes (proved); its descendants are at rest only if no start trigger fires below an element being stopped; the unrestricted claim is refuted"},
{"property": "C08", "status": "proved", "theorems": ["Verif.Storyboard.C08_maneuver", "Verif.Storyboard.C08_act", "Verif.Storyboard.C08_story", "Verif.Storyboard.C08_storyboard", "Verif.Storyboard.C08_init_first", "Verif.Storyboard.C08_group", "Verif.Storyboard.C08_event"], "note": ""},
{"property": "C09", "status": "proved", "theorems": ["Verif.Condition.C09_none", "Verif.Condition.C09_first_evaluation", "Verif.Condition.C09_edges", "Verif.Condition.C09_sticky"], "note": ""},
{"property": "C10", "status": "proved", "theorems": ["Verif.Condition.C10_delay", "Verif.Condition.C10_sticky_stays"], "note": "any monotone now - delay, times in any linear order"},
{"property": "C100", "status": "partial", "theorems": ["Verif.Vehicle.C100_hold", "Verif.Vehicle.C100_brake", "Verif.Vehicle.C100_drive", "Verif.Vehicle.C100_park_rolls_violated", "Verif.Vehicle.C100_park_slope_violated", "Verif.Vehicle.C100_drive_backward_violated"], "note": "refuted for PARK and for the release of the brake near standstill"},
{"property": "C101", "status": "partial", "theorems": ["Verif.Ego.C101_place", "Verif.Ego.C101_orientation", "Verif.Ego.C101_lane", "Verif.Ego.C101_no_jump", "Verif.Ego.C101_tilted", "Verif.Ego.C101_early_violated", "Verif.Ego.C101_tilted_violated"], "note": "refuted for an ego spawned tilted, and for overwritings before the start, which the next update undoes"},
{"property": "C102", "status": "partial", "theorems": ["Verif.Ego.C102_place", "Verif.Ego.C102_heading", "Verif.Ego.C102_speed_partial", "Verif.Ego.C102_turn_partial", "Verif.Ego.C102_acceleration_partial", "Verif.Ego.C102_speed_violated", "Verif.Ego.C102_turn_violated", "Verif.Ego.C102_tilt_violated", "Verif.Ego.C102_junk_violated"], "note": "refuted for the speed of IDEAL_STEER_VEL, the turn of the ideal models and the pitch; the pedal state of the model without fall guard is not assigned"},
{"property": "C103", "status": "proved", "theorems": ["Verif.Ego.C103_step", "Verif.Ego.C103_defined", "Verif.Ego.C103_ideal", "Verif.Ego.C103_gear", "Verif.Ego.C103_gravity", "Verif.Ego.C103_unused"], "note": ""},
{"property": "C104", "status": "partial", "theorems": ["Verif.Ego.C104_differences", "Verif.Ego.C104_told", "Verif.Ego.C104_time", "Verif.Ego.C104_jerk_violated"], "note": "refuted for the jerk, which is an acceleration"},
{"property": "C105", "status": "proved", "theorems": ["Verif.Server.C105_mode", "Verif.Server.C105_who", "Verif.Server.C105_requests", "Verif.Server.C105_one"], "note": "requests of the control mode come between requests of the simulator"},
{"property": "C106", "status": "partial", "theorems": ["Verif.Server.C106_known", "Verif.Server.C106_frame", "Verif.Server.C106_despawn", "Verif.Server.C106_update", "Verif.Server.C106_unknown", "Verif.Server.C106_spawn", "Verif.Server.C106_same_name_violated", "Verif.Server.C106_stale_status_violated"], "note": "as long as no name is spawned while it is in use; refuted otherwise"},
{"property": "C107", "status": "partial", "theorems": ["Verif.Convert.C107_pose", "Verif.Convert.C107_action", "Verif.Convert.C107_time", "Verif.Convert.C107_status", "Verif.Convert.C107_update", "Verif.Convert.C107_parameters_partial", "Verif.Convert.C107_subtype_violated", "Verif.Convert.C107_trajectory", "Verif.Convert.C107_gear_partial", "Verif.Convert.C107_gear_violated", "Verif.Convert.C107_unique"], "note": "refuted for the subtype of parameters, which is lost, and for unknown gears, which leave the gear of the receiving object"},
{"property": "C108", "status": "partial", "theorems": ["Verif.Convert.Lights.C108_direct", "Verif.Convert.Lights.C108_groups_partial", "Verif.Convert.Lights.C108_ways_partial", "Verif.Convert.Lights.C108_once", "Verif.Convert.Lights.C108_predictions_partial", "Verif.Convert.Lights.C108_element", "Verif.Convert.Lights.C108_upper_violated", "Verif.Convert.Lights.C108_id_violated"], "note": "refuted for arrows to the upper left and right, which are published as unknown, and for ids beyond 32 bits, which are cut"},
{"property": "C109", "status": "partial", "theorems": ["Verif.Follow.C109_partial", "Verif.Follow.C109_violated"], "note": "what is left is at most 9/8 of one step of the rate; refuted for one step"},
{"property": "C11", "status": "proved", "theorems": ["Verif.Condition.C11_history"], "note": ""},
{"property": "C110", "status": "partial", "theorems": ["Verif.Follow.C110_partial", "Verif.Follow.C110_deceleration_violated", "Verif.Follow.C110_target_violated", "Verif.Follow.C110_max_speed_violated"], "note": "for entities whose speed is in the range of the limits; refuted above the target speed, for different rates, and for target speeds above the maximum speed"},
{"property": "C111", "status": "partial", "theorems": ["Verif.Follow.C111_partial", "Verif.Follow.C111_slow_down_violated", "Verif.Follow.C111_rates_violated"], "note": "for equal rates from a speed below the target; refuted for a slower target and for different rates"},
{"property": "C112", "status": "partial", "theorems": ["Verif.Follow.C112_stop", "Verif.Follow.C112_standstill", "Verif.Follow.C112_time", "Verif.Follow.C112_last", "Verif.Follow.C112_last_braking", "Verif.Follow.C112_last_passing", "Verif.Follow.C112_last_stop", "Verif.Follow.C112_last_error", "Verif.Follow.C112_just_late", "Verif.Follow.C112_whole_steps", "Verif.Follow.C112_late_violated"], "note": "when the predictions end; a waypoint that is late by one step is undefined behaviour"},
{"property": "C113", "status": "partial", "theorems": ["Verif.Follow.C113_order", "Verif.Follow.C113_missed", "Verif.Follow.C113_history", "Verif.Follow.C113_done", "Verif.Follow.C113_done_now", "Verif.Follow.C113_move", "Verif.Follow.C113_direction", "Verif.Follow.C113_returns", "Verif.Follow.C113_brake", "Verif.Follow.C113_wait", "Verif.Follow.C113_closed_violated", "Verif.Follow.C113_short_violated", "Verif.Follow.C113_pair_violated"], "note": "refuted for closed trajectories, whose recursion may not end or which end, and for trajectories of fewer than two waypoints, which are undefined behaviour"},
{"property": "C114", "status": "partial", "theorems": ["Verif.Follow.Idle.C114_place", "Verif.Follow.Idle.C114_end", "Verif.Follow.Idle.C114_before", "Verif.Follow.Idle.C114_done", "Verif.Follow.Idle.C114_refused", "Verif.Follow.Idle.C114_idle", "Verif.Follow.Idle.C114_absolute_violated", "Verif.Follow.Idle.C114_acceleration_violated", "Verif.Follow.Idle.C114_jump_violated", "Verif.Follow.Idle.C114_single_violated"], "note": "for times relative to a base time; refuted for absolute times, which are never followed, and for the reported acceleration, the start and trajectories of one vertex"},
{"property": "C115", "status": "partial", "theorems": ["Verif.Reader.C115_substitute", "Verif.Reader.C115_done", "Verif.Reader.C115_text", "Verif.Reader.C115_returns", "Verif.Reader.C115_unknown", "Verif.Reader.C115_no_parameter", "Verif.Reader.C115_value", "Verif.Reader.C115_reference", "Verif.Reader.C115_expression", "Verif.Reader.C115_missing", "Verif.Reader.C115_empty_violated", "Verif.Reader.C115_lines_violated", "Verif.Reader.C115_ros2_violated", "Verif.Reader.C115_returns_violated"], "note": "for substituted values on one line without $; refuted for empty values, texts with line breaks, ros2 commands without output and parameters whose value is the beginning of a substitution, for which reading may not end"},
{"property": "C116", "status": "partial", "theorems": ["Verif.Reader.C116_elements", "Verif.Reader.C116_element", "Verif.Reader.C116_choice", "Verif.Reader.C116_unknown_violated", "Verif.Reader.C116_twice_violated", "Verif.Reader.C116_deterministic_violated"], "note": "refuted for elements of unknown names and repeated single elements, which are ignored, and for deterministic distributions, of which none is ever read"},
{"property": "C117", "status": "partial", "theorems": ["Verif.Grid.C117_ends", "Verif.Grid.C117_touched", "Verif.Grid.C117_cells", "Verif.Grid.C117_border_violated"], "note": "for lines that do not start at a whole coordinate in the direction of which they go up; refuted for those, which are shifted by a cell"},
{"property": "C118", "status": "partial", "theorems": ["Verif.Grid.C118_values", "Verif.Grid.C118_outline", "Verif.Grid.C118_between", "Verif.Grid.C118_inside", "Verif.Grid.C118_seen", "Verif.Grid.C118_many", "Verif.Grid.C118_small_violated", "Verif.Grid.C118_border_violated"], "note": "for objects whose corners are neither all in one cell nor on cell borders; refuted for those, of which nothing or not all is drawn. Convex hull and clipping are parameters"},
{"property": "C119", "status": "partial", "theorems": ["Verif.Grid.C119_message", "Verif.Grid.C119_many", "Verif.Grid.C119_vertices", "Verif.Grid.C119_place_partial", "Verif.Grid.C119_place_violated", "Verif.Grid.C119_turned_violated"], "note": "the place is right for square grids and refuted for all others. Convex hull and clipping are parameters"},
{"property": "C12", "status": "proved", "theorems": ["Verif.Condition.C12_samples_every_condition", "Verif.Condition.C12_trigger_value"], "note": ""},
{"property": "C120", "status": "partial", "theorems": ["Verif.Grid.C120_hidden", "Verif.Grid.C120_only", "Verif.Grid.C120_ends", "Verif.Grid.C120_surrounded_violated"], "note": "for objects that do not surround the sensor; refuted for those that do"},
{"property": "C121", "status": "partial", "theorems": ["Verif.Behavior.C121_moves_once_partial", "Verif.Behavior.C121_backward_violated", "Verif.Behavior.C121_off_lane_violated", "Verif.Behavior.C121_off_lane_stops", "Verif.Behavior.C121_backward_partial"], "note": "for vehicles that go forward on a lane; refuted for the first frame of moving backward, which moves twice, and for vehicles that are taken off the lane"},
{"property": "C122", "status": "partial", "theorems": ["Verif.Behavior.C122_trajectory", "Verif.Behavior.C122_trajectory_ends_partial", "Verif.Behavior.C122_at_once_violated", "Verif.Behavior.C122_no_lane_change", "Verif.Behavior.C122_off_lane", "Verif.Behavior.C127_forced_partial"], "note": "for trajectories that take at least two frames; refuted for others, whose request never ends"},
{"property": "C123", "status": "partial", "theorems": ["Verif.Behavior.C123_red_light_partial", "Verif.Behavior.C123_front_violated", "Verif.Behavior.C123_memory_violated"], "note": "with nothing in front of the vehicle, and when it does not already wait for something else; refuted otherwise"},
{"property": "C124", "status": "partial", "theorems": ["Verif.Behavior.C124_front_partial", "Verif.Behavior.C124_cut_in_violated"], "note": "when the vehicle does not already slow down for something else; refuted otherwise"},
{"property": "C125", "status": "partial", "theorems": ["Verif.Behavior.C125_stop_line_partial", "Verif.Behavior.C125_tie_violated", "Verif.Behavior.C125_creep_violated"], "note": "the stop; refuted that the vehicle crosses the line afterwards, and for conflicts as far away as the line"},
{"property": "C126", "status": "partial", "theorems": ["Verif.Behavior.C126_target_partial", "Verif.Behavior.C126_yield_violated"], "note": "for vehicles that need not give way; refuted for those that have to"},
{"property": "C127", "status": "partial", "theorems": ["Verif.Behavior.C127_forced_partial", "Verif.Behavior.C127_best_effort_partial", "Verif.Behavior.C127_best_effort_violated", "Verif.Behavior.C127_one_frame_violated", "Verif.Behavior.C127_left_over_violated"], "note": "for the policy FORCE and lane changes of more than one frame; refuted for the policy BEST_EFFORT, for lane changes of one frame, and after a lane change that failed"},
{"property": "C128", "status": "partial", "theorems": ["Verif.Distance.C128_longitudinal", "Verif.Distance.C128_antisymmetric", "Verif.Distance.C128_additive", "Verif.Distance.C128_found_partial", "Verif.Distance.C128_same_lanelet", "Verif.Distance.C128_nearest", "Verif.Distance.C128_lateral", "Verif.Distance.C128_lateral_route", "Verif.Distance.C128_lateral_within", "Verif.Distance.C128_lateral_one_way_violated", "Verif.Distance.C128_opposite_violated", "Verif.Distance.C128_two_names_violated", "Verif.Distance.C128_relative"], "note": "for maps whose lanelets are laid out along a line or ring; refuted for lateral distances back, for places opposite on a ring, and for the existence of distances of places with two names"},
{"property": "C129", "status": "partial", "theorems": ["Verif.Distance.C129_longitudinal_partial", "Verif.Distance.C129_overlap_violated", "Verif.Distance.C129_lateral_partial", "Verif.Distance.C129_edges_violated", "Verif.Distance.C129_relative_partial"], "note": "for bodies that do not overlap, laterally for bodies with the reference point in the middle; refuted otherwise"},
{"property": "C13", "status": "proved", "theorems": ["Verif.Condition.C13_active_group", "Verif.Condition.C13_no_active_group"], "note": ""},
{"property": "C130", "status": "partial", "theorems": ["Verif.Distance.C130_relative_partial", "Verif.Distance.C130_signed", "Verif.Distance.C130_euclidean", "Verif.Distance.C130_supported", "Verif.Distance.C130_absent", "Verif.Distance.C130_no_route", "Verif.Distance.C130_entities", "Verif.Distance.C130_behind_violated", "Verif.Distance.C130_constructible"], "note": "refuted for positions behind or to the right, and for entities along or across the lane without a routing algorithm, whose distances are negative"},
{"property": "C131", "status": "partial", "theorems": ["Verif.Distance.C131_references", "Verif.Distance.C131_everyone_partial", "Verif.Distance.C131_any_violated", "Verif.Distance.C131_overlap_violated"], "note": "for given entities, and for all entities with the rule all; refuted for the rule any, where entities see themselves, and for overlapping bodies"},
{"property": "C132", "status": "partial", "theorems": ["Verif.Distance.C132_behind_partial", "Verif.Distance.C132_position_partial", "Verif.Distance.C132_defined", "Verif.Distance.C132_apart_violated", "Verif.Distance.C132_ahead_violated", "Verif.Distance.C132_standing_violated", "Verif.Distance.C132_euclidean_violated", "Verif.Distance.C132_beside_partial"], "note": "for a target ahead that is approached; refuted for targets behind, standing entities and the Euclidean distance. When no collision is ahead the time is infinite, so that greaterThan is met"},
{"property": "C133", "status": "partial", "theorems": ["Verif.Distance.C133_stop_line", "Verif.Distance.C133_lights_partial", "Verif.Distance.C133_light_violated", "Verif.Distance.C133_right_of_way", "Verif.Distance.C133_yield_stop_partial", "Verif.Distance.C133_no_yield_stop", "Verif.Distance.C133_yield_violated", "Verif.Distance.C133_conflict"], "note": "for lights with one stop line; refuted for lights with two, and for the place of the stop when an earlier lanelet has mutual priority"},
{"property": "C134", "status": "partial", "theorems": ["Verif.Distance.C134_front_partial", "Verif.Distance.C134_distance_partial", "Verif.Distance.C134_overlap_violated", "Verif.Distance.C134_tie_violated", "Verif.Distance.C134_threshold_violated", "Verif.Distance.C134_trajectory", "Verif.Distance.C134_first_part"], "note": "when no two entities are equally far away; refuted for those, for overlapping bodies and for a lateral threshold that is not half of the width. The geometry of splines and boxes is a parameter"},
{"property": "C135", "status": "partial", "theorems": ["Verif.Distance.C135_attained", "Verif.Distance.C135_straight_partial", "Verif.Distance.C135_corners", "Verif.Distance.C135_turn_violated"], "note": "nearest on straight ways, never too small on any; refuted for ways that turn"},
{"property": "C136", "status": "partial", "theorems": ["Verif.Command.C136_calls", "Verif.Command.C136_nothing_lost", "Verif.Command.C136_parameters", "Verif.Command.C136_alone", "Verif.Command.C136_space_violated"], "note": "refuted for a space behind the parenthesis or before a comma: the text is then no call at all"},
{"property": "C137", "status": "partial", "theorems": ["Verif.Command.C137_program", "Verif.Command.C137_print", "Verif.Command.C137_misspelled_violated", "Verif.Command.C137_faults", "Verif.Command.C137_fault_level", "Verif.Command.C137_fault_arguments_violated", "Verif.Command.C137_undefined", "Verif.Command.C137_exit", "Verif.Command.C137_features", "Verif.Command.C137_walk", "Verif.Command.C137_state", "Verif.Command.C137_two", "Verif.Command.C137_failed_partial", "Verif.Command.C137_failed_violated", "Verif.Command.C137_arguments_partial", "Verif.Command.C137_arguments_violated", "Verif.Command.C137_long"], "note": "refuted: misspelled commands and failing programs go unnoticed, some failing commands have done part of their work, missing parameters of a fault are undefined behaviour, two spaces give an empty argument"},
{"property": "C138", "status": "partial", "theorems": ["Verif.Command.C138_entity", "Verif.Command.C138_headings", "Verif.Command.C138_unreadable", "Verif.Command.C138_heading_partial", "Verif.Command.C138_heading_violated", "Verif.Command.C138_count_violated", "Verif.Command.C138_topic", "Verif.Command.C138_messages", "Verif.Command.C138_empty_violated", "Verif.Command.C138_text"], "note": "refuted for headings with a decimal point, which are refused, and for a wrong number of parameters, which is not"},
{"property": "C139", "status": "partial", "theorems": ["Verif.Sensing.C139_documented", "Verif.Sensing.C139_ring", "Verif.Sensing.C139_sizes", "Verif.Sensing.C139_ratio_violated", "Verif.Sensing.C139_longitudinal_partial", "Verif.Sensing.C139_longitudinal_violated"], "note": "along the ego only for circles or an ego that looks along the x axis; refuted otherwise, as the ellipses have the axes of the map. A missing ratio means no noise"},
{"property": "C14", "status": "partial", "theorems": ["Verif.Condition.C14_latches_partial", "Verif.Condition.C14_true_only_if_entered", "Verif.Condition.C14_violated"], "note": "violated for a condition watching startTransition of a vetoed skip event"},
{"property": "C140", "status": "partial", "theorems": ["Verif.Sensing.C140_wildcards", "Verif.Sensing.C140_applies", "Verif.Sensing.C140_first", "Verif.Sensing.C140_none", "Verif.Sensing.C140_only", "Verif.Sensing.C140_dot_violated"], "note": "for patterns without characters that are special in regular expressions; refuted for the dot"},
{"property": "C141", "status": "partial", "theorems": ["Verif.Sensing.C141_bin", "Verif.Sensing.C141_each", "Verif.Sensing.C141_untouched", "Verif.Sensing.C141_radial", "Verif.Sensing.C141_tangential_partial", "Verif.Sensing.C141_remembered", "Verif.Sensing.C141_sizes_violated", "Verif.Sensing.C141_radius_violated", "Verif.Sensing.C141_beyond_violated", "Verif.Sensing.C141_ratios_violated", "Verif.Sensing.C141_tangential_violated"], "note": "refuted: radii act as their squares, the last values are used beyond the last radius, most ratios are not read, short lists are undefined behaviour, tangential noise is horizontal and shrinks with the elevation"},
{"property": "C142", "status": "partial", "theorems": ["Verif.Sensing.C142_sight", "Verif.Sensing.C142_quiet", "Verif.Sensing.C142_same_place", "Verif.Sensing.C142_spot_partial", "Verif.Sensing.C142_spot_violated", "Verif.Sensing.C142_flip", "Verif.Sensing.C142_pivot", "Verif.Sensing.C142_closest", "Verif.Sensing.C142_flip4", "Verif.Sensing.C142_touching"], "note": "refuted for version 2 and boxes whose centre is not the reference point, which are moved when flipped. Upright entities; the closest point is a parameter"},
{"property": "C143", "status": "partial", "theorems": ["Verif.Sensing.C143_angles", "Verif.Sensing.C143_rays", "Verif.Sensing.C143_around", "Verif.Sensing.C143_down", "Verif.Sensing.C143_points", "Verif.Sensing.C143_seen", "Verif.Sensing.C143_phase", "Verif.Sensing.C143_resolution_violated", "Verif.Sensing.C143_once_violated", "Verif.Sensing.C143_ahead_violated", "Verif.Sensing.C143_phase_violated"], "note": "refuted: the first direction is scanned twice if the resolution divides the circle, sensors out of phase are told that nothing is seen, a resolution of zero hangs. The intersection of rays and boxes is a parameter"},
{"property": "C144", "status": "partial", "theorems": ["Verif.Sensing.C144_published", "Verif.Sensing.C144_quiet", "Verif.Sensing.C144_noise", "Verif.Sensing.C144_level_partial", "Verif.Sensing.C144_slope_violated", "Verif.Sensing.C144_heading_violated"], "note": "gravity on level ground; refuted on slopes, where it is turned the wrong way"},
{"property": "C145", "status": "partial", "theorems": ["Verif.Behavior.C145_crossing_partial", "Verif.Behavior.C145_memory_violated"], "note": "without stop lines, entities and red lights before; refuted for a vehicle that gave way in the frame before"},
{"property": "C146", "status": "partial", "theorems": ["Verif.Operator.C146_points", "Verif.Operator.C146_one", "Verif.Operator.C146_one_point", "Verif.Operator.C146_lane_points", "Verif.Operator.C146_lanelets_partial", "Verif.Operator.C146_initialized_once", "Verif.Operator.C146_replan_partial", "Verif.Operator.C146_unreachable_violated", "Verif.Operator.C146_off_lane_violated", "Verif.Operator.C146_off_lane_undefined_violated", "Verif.Operator.C146_loop_violated", "Verif.Operator.C146_replan_violated"], "note": "with lanelets if each point can be reached from the one before; refuted for unreachable points, poses off the lanes, round courses and new routes of more than one pose"},
{"property": "C147", "status": "partial", "theorems": ["Verif.Operator.C147_trajectory", "Verif.Operator.C147_trajectory_error", "Verif.Operator.C147_frame_defined", "Verif.Operator.C147_kept", "Verif.Operator.C147_speed_change", "Verif.Operator.C147_velocity_limit", "Verif.Operator.C147_respawn", "Verif.Operator.C147_time_violated"], "note": "refuted for the time of the ego in the last frame of a trajectory"},
{"property": "C148", "status": "partial", "theorems": ["Verif.Operator.C148_sent", "Verif.Operator.C148_refused", "Verif.Operator.C148_never_twice", "Verif.Operator.C148_again_violated"], "note": "refuted for a request that comes back to a state in which it was answered"},
{"property": "C149", "status": "partial", "theorems": ["Verif.Cache.C149_any_schedule", "Verif.Cache.C149_ends", "Verif.Cache.C149_last_map", "Verif.Cache.C149_held_partial", "Verif.Cache.C149_race_violated", "Verif.Cache.C149_activate_violated", "Verif.Cache.C149_stale_violated"], "note": "refuted for data races of center points, and for maps chosen while another thread uses the one before"},
{"property": "C15", "status": "proved", "theorems": ["Verif.Signal.C15_cycle", "Verif.Signal.C15_evaluation", "Verif.Signal.C15_reported", "Verif.Signal.C15_command"], "note": "times of an arbitrary type with arbitrary arithmetic; other controllers, actions on them and changes of lights interleaved arbitrarily"},
{"property": "C150", "status": "partial", "theorems": ["Verif.Place.C150_lane", "Verif.Place.C150_set_lane", "Verif.Place.C150_to_lane", "Verif.Place.C150_world_partial", "Verif.Place.C150_world_keeps_lane", "Verif.Place.C150_world_violated", "Verif.Place.C150_relative_partial", "Verif.Place.C150_no_reference", "Verif.Place.C150_add_world", "Verif.Place.C150_add_lane", "Verif.Place.C150_add_relative_partial", "Verif.Place.C150_add_relative_world_violated", "Verif.Place.C150_add_relative_object_violated", "Verif.Place.C150_relative_world_violated", "Verif.Place.C150_relative_object_violated"], "note": "refuted for entities on a lane that are teleported to a pose in the world, relative world positions, and the heading of entities added relative to others"},
{"property": "C151", "status": "partial", "theorems": ["Verif.Place.C151_sound", "Verif.Place.C151_added", "Verif.Place.C151_report", "Verif.Place.C151_guard", "Verif.Place.C151_guard_violated"], "note": "refuted: a teleport in the scenario passes by the guard of the ego"},
{"property": "C152", "status": "partial", "theorems": ["Verif.Lanes.C152_resampled", "Verif.Lanes.C152_count", "Verif.Lanes.C152_centerline_partial", "Verif.Lanes.C152_shape_partial", "Verif.Lanes.C152_custom", "Verif.Lanes.C152_third", "Verif.Lanes.C152_repeated_violated", "Verif.Lanes.C152_point_violated"], "note": "refuted for borders that begin with the same point twice and borders of one point"},
{"property": "C153", "status": "partial", "theorems": ["Verif.Lanes.C153_relative_partial", "Verif.Lanes.C153_refused", "Verif.Lanes.C153_wrapped_violated", "Verif.Lanes.C153_pedestrian_violated", "Verif.Lanes.C153_ego", "Verif.Lanes.C153_direction_partial", "Verif.Lanes.C153_direction_violated", "Verif.Lanes.C153_unknown", "Verif.Lanes.C153_count", "Verif.Lanes.C153_count_none"], "note": "for less than 256 lanes; refuted for more, for pedestrians, and for changes to a side without a lane, which are ignored"},
{"property": "C154", "status": "partial", "theorems": ["Verif.Lanes.C154_place", "Verif.Lanes.C154_none", "Verif.Lanes.C154_bound", "Verif.Lanes.C154_bound_error", "Verif.Lanes.C154_offset_violated"], "note": "refuted for the offset of changes without a constraint"},
{"property": "C155", "status": "partial", "theorems": ["Verif.Lanes.C155_nearby_sound", "Verif.Lanes.C155_nearby_partial", "Verif.Lanes.C155_order", "Verif.Lanes.C155_nearby_violated", "Verif.Lanes.C155_subtype_violated", "Verif.Lanes.C155_yaw_partial", "Verif.Lanes.C155_yaw_violated", "Verif.Lanes.C155_yaw_none", "Verif.Lanes.C155_speed", "Verif.Lanes.C155_speed_none", "Verif.Lanes.C155_points", "Verif.Lanes.C155_length", "Verif.Lanes.C155_union"], "note": "refuted if more lanelets are near than are looked at, for lanelets without a subtype, and for points nearest to the end of a lane"},
{"property": "C156", "status": "partial", "theorems": ["Verif.Lanes.C156_bulb", "Verif.Lanes.C156_bulb_found", "Verif.Lanes.C156_bulb_none", "Verif.Lanes.C156_guess", "Verif.Lanes.C156_stop_lines", "Verif.Lanes.C156_stop_line_points", "Verif.Lanes.C156_listed", "Verif.Lanes.C156_together_violated"], "note": "refuted: the lists of ids and of points of stop lines do not go together"},
{"property": "C157", "status": "partial", "theorems": ["Verif.Monitor.C157_entries", "Verif.Monitor.C157_good_partial", "Verif.Monitor.C157_clock", "Verif.Monitor.C157_clock_violated", "Verif.Monitor.C157_ended_violated", "Verif.Monitor.C157_restored_partial", "Verif.Monitor.C157_overridden", "Verif.Monitor.C157_restored_violated"], "note": "if the clock stands still while a report is written and one thread overrides the threshold; refuted otherwise, and for threads that end without telling the monitor"},
{"property": "C158", "status": "partial", "theorems": ["Verif.Monitor.C158_stuck", "Verif.Monitor.C158_deadlock_violated", "Verif.Monitor.C158_ends_partial", "Verif.Monitor.C158_order"], "note": "refuted: the last monitor waits for the watchdog with the lock that the watchdog waits for; proved that this is the only such state and that the process ends otherwise"},
{"property": "C159", "status": "partial", "theorems": ["Verif.Init.C159_order_partial", "Verif.Init.C159_once_partial", "Verif.Init.C159_each_frame_partial", "Verif.Init.C159_complete_partial", "Verif.Init.C159_environment_violated", "Verif.Init.C159_order_violated", "Verif.Init.C159_ignored_violated"], "note": "refuted for actions that change the environment, for documents in another order, and for children that are not known"},
{"property": "C16", "status": "partial", "theorems": ["Verif.Signal.C16_begins_partial", "Verif.Signal.C16_not_before", "Verif.Signal.C16_violated"], "note": "proved for the latest begin of the reference; refuted if the reference begins again within the delay, which replaces the pending start"},
{"property": "C160", "status": "partial", "theorems": ["Verif.Pedestrian.C160_front", "Verif.Pedestrian.C160_same_place_violated", "Verif.Pedestrian.C160_stops", "Verif.Pedestrian.C160_blind", "Verif.Pedestrian.C160_waypoints", "Verif.Pedestrian.C160_modes", "Verif.Pedestrian.C160_area_violated", "Verif.Pedestrian.C160_narrow_violated"], "note": "what is decided is proved exactly; refuted that it is right: the area in front is a ring that crosses itself, something narrow straight ahead is not in it, and for an entity at the same place the direction on the map decides"},
{"property": "C161", "status": "partial", "theorems": ["Verif.Pedestrian.C161_straight_partial", "Verif.Pedestrian.C161_line_partial", "Verif.Pedestrian.C161_end", "Verif.Pedestrian.C161_jump_violated", "Verif.Pedestrian.C161_global", "Verif.Pedestrian.C161_turning"], "note": "as long as no frame goes beyond the end of a lanelet; refuted where lanelets overlap"},
{"property": "C162", "status": "partial", "theorems": ["Verif.Pedestrian.C162_decision", "Verif.Pedestrian.C162_others", "Verif.Pedestrian.C162_blind", "Verif.Pedestrian.C162_off", "Verif.Pedestrian.C162_ahead_violated", "Verif.Pedestrian.C162_behind_violated", "Verif.Pedestrian.C162_north_partial"], "note": "refuted: in front means to the north on the map; true for pedestrians who walk to the north"},
{"property": "C163", "status": "proved", "theorems": ["Verif.Pedestrian.C163_horizon", "Verif.Pedestrian.C163_waypoints"], "note": ""},
{"property": "C164", "status": "partial", "theorems": ["Verif.RandomTest.C164_route_partial", "Verif.RandomTest.C164_npcs_partial", "Verif.RandomTest.C164_empty", "Verif.RandomTest.C164_defined", "Verif.RandomTest.C164_behind_violated", "Verif.RandomTest.C164_ego_violated"], "note": "refuted: the goal may be behind the start where no way leads to, and on a round course a vehicle may be put onto the ego"},
{"property": "C165", "status": "partial", "theorems": ["Verif.RandomTest.C165_near_partial", "Verif.RandomTest.C165_found", "Verif.RandomTest.C165_ends", "Verif.RandomTest.C165_refused", "Verif.RandomTest.C165_ring_violated", "Verif.RandomTest.C165_short_violated"], "note": "refuted for round courses, where a place found may also be nearer, and for lanes beside that are shorter than the pose is far"},
{"property": "C166", "status": "partial", "theorems": ["Verif.RandomTest.C166_replay", "Verif.RandomTest.C166_tests", "Verif.RandomTest.C166_goal", "Verif.RandomTest.C166_fixed_violated", "Verif.RandomTest.C166_none_violated", "Verif.RandomTest.C166_one_violated"], "note": "refuted for a seed of one's own, with which all tests are the same, for runs without tests, and if one of the tests cannot be made"},
{"property": "C167", "status": "partial", "theorems": ["Verif.RandomTest.C167_pass_partial", "Verif.RandomTest.C167_kept", "Verif.RandomTest.C167_over", "Verif.RandomTest.C167_timeout", "Verif.RandomTest.C167_ends_partial", "Verif.RandomTest.C167_written", "Verif.RandomTest.C167_order", "Verif.RandomTest.C167_next", "Verif.RandomTest.C167_missing", "Verif.RandomTest.C167_thrown", "Verif.RandomTest.C167_setup", "Verif.RandomTest.C167_silent_violated", "Verif.RandomTest.C167_waits_violated", "Verif.RandomTest.C167_refused_violated"], "note": "refuted for an ego that cannot be put on the map, one that is never engaged, and a simulator that refuses to go on"},
{"property": "C168", "status": "partial", "theorems": ["Verif.RandomTest.C168_collision", "Verif.RandomTest.C168_standstill_partial", "Verif.RandomTest.C168_others", "Verif.RandomTest.C168_never_violated", "Verif.RandomTest.C168_backwards_violated", "Verif.RandomTest.C168_before_violated"], "note": "for an ego that is engaged from the first frame; refuted for an ego that is engaged later and never moves, for contacts before that, and for an ego that drives backwards"},
{"property": "C169", "status": "partial", "theorems": ["Verif.Orca.C169_speed", "Verif.Orca.C169_returns", "Verif.Orca.C169_best_partial", "Verif.Orca.C169_aligned_partial", "Verif.Orca.C169_parallel_violated", "Verif.Orca.C169_thrown_violated"], "note": "for lines of which every two are parallel or clearly not so; refuted for nearly parallel lines and for a tiny wish"},
{"property": "C17", "status": "proved", "theorems": ["Verif.Signal.C17_no_leak"], "note": "all four kinds of lights, way and regulatory element ids, with the V2I mirror"},
{"property": "C170", "status": "partial", "theorems": ["Verif.Orca.C170_least_partial"], "note": "for lines of which every two, and the differences of their directions, are parallel or clearly not so"},
{"property": "C171", "status": "partial", "theorems": ["Verif.Orca.C171_apart_partial", "Verif.Orca.C171_parted_partial", "Verif.Orca.C171_end_not_avoided", "Verif.Orca.C171_end_violated", "Verif.Orca.C171_across_violated", "Verif.Orca.C171_same_violated"], "note": "refuted at the near end of the velocities that lead to a collision, for boxes across each other and for entities at one place"},
{"property": "C172", "status": "partial", "theorems": ["Verif.Orca.C172_ignored", "Verif.Orca.C172_moves_partial", "Verif.Orca.C172_stands_partial", "Verif.Orca.C172_free", "Verif.Orca.C172_pair_partial", "Verif.Orca.C172_unlimited_violated"], "note": "on one level; refuted for a trajectory without times, on which there is no limit"},
{"property": "C173", "status": "partial", "theorems": ["Verif.Orca.C173_goal", "Verif.Orca.C173_follow_lane", "Verif.Orca.C173_lost_violated", "Verif.Orca.C173_other_violated", "Verif.Orca.C173_back_violated"], "note": "refuted for a pedestrian off its route, for which the frame never ends, for requests it does not know and for routes that come back near themselves"},
{"property": "C174", "status": "partial", "theorems": ["Verif.Orca.C174_follow", "Verif.Orca.C174_goes_on", "Verif.Orca.C174_done", "Verif.Orca.C174_wait", "Verif.Orca.C174_speed_partial", "Verif.Orca.C174_endless_violated", "Verif.Orca.C174_replace_violated", "Verif.Orca.C174_last_violated", "Verif.Orca.C174_untimed_violated"], "note": "refuted for the last vertex, for trajectories without times, for a new trajectory on the way along another, and for small closed ones"},
{"property": "C175", "status": "partial", "theorems": ["Verif.Modify.C175_steps", "Verif.Modify.C175_zero", "Verif.Modify.C175_complete", "Verif.Modify.C175_bounded", "Verif.Modify.C175_exact_partial", "Verif.Modify.C175_past_violated"], "note": "refuted for stops a thousand million times as great as the step, which are passed"},
{"property": "C176", "status": "partial", "theorems": ["Verif.Modify.C176_files", "Verif.Modify.C176_plain", "Verif.Modify.C176_none_violated"], "note": "for modifiers whose scenarios are all valid; a modifier without values gives no scenario and no error"},
{"property": "C177", "status": "partial", "theorems": ["Verif.Modify.C177_words_partial", "Verif.Modify.C177_unchanged", "Verif.Modify.C177_again_violated", "Verif.Modify.C177_within_violated"], "note": "where names stand alone and are in no value; refuted for values in which another name occurs and for names within words"},
{"property": "C178", "status": "partial", "theorems": ["Verif.Modify.C178_valid", "Verif.Modify.C178_exits", "Verif.Modify.C178_silent_violated"], "note": "refuted that the caller can tell: the status is zero"},
{"property": "C179", "status": "partial", "theorems": ["Verif.Modify.C179_entries", "Verif.Modify.C179_items", "Verif.Modify.C179_text", "Verif.Modify.C179_total", "Verif.Modify.C179_booleans", "Verif.Modify.C179_number_violated"], "note": "refuted for numbers that are the content of an element, which are lost"},
{"property": "C18", "status": "partial", "theorems": ["Verif.Signal.C18_predictions_partial", "Verif.Signal.C18_violated", "Verif.Signal.C18_short_phases_not_predicted"], "note": "exact characterisation of the predictions of every change that does not end in undefined behaviour; the cycle time computed in int makes it undefined for some phase lists with an unbounded phase"},
{"property": "C180", "status": "proved", "theorems": ["Verif.Catalog.C180_entry", "Verif.Catalog.C180_accepts", "Verif.Catalog.C180_missing", "Verif.Catalog.C180_many"], "note": ""},
{"property": "C181", "status": "partial", "theorems": ["Verif.Catalog.C181_from_file", "Verif.Catalog.C181_found_partial", "Verif.Catalog.C181_order_partial", "Verif.Catalog.C181_read", "Verif.Catalog.C181_yaml", "Verif.Catalog.C181_errors", "Verif.Catalog.C181_locations_partial", "Verif.Catalog.C181_order_violated", "Verif.Catalog.C181_invalid_violated", "Verif.Catalog.C181_locations_violated"], "note": "for catalogs with names of their own; refuted for two of one name, and for an invalid one in YAML, which is passed over"},
{"property": "C182", "status": "partial", "theorems": ["Verif.Catalog.C182_values_partial", "Verif.Catalog.C182_ignored_violated", "Verif.Catalog.C182_assigned_violated"], "note": "for references that assign nothing; assignments have no effect"},
{"property": "C183", "status": "partial", "theorems": ["Verif.Catalog.C183_kind", "Verif.Catalog.C183_loud_partial", "Verif.Catalog.C183_unsupported", "Verif.Catalog.C183_silent_violated"], "note": "for entities and maneuvers; refuted for controllers, where another class is accepted and not used"},
{"property": "C184", "status": "partial", "theorems": ["Verif.Select.C184_read", "Verif.Select.C184_known", "Verif.Select.C184_object_partial", "Verif.Select.C184_bytype_partial", "Verif.Select.C184_selection_partial", "Verif.Select.C184_twice_violated"], "note": "with names all different; refuted for two entities of one name, of which the second is dropped without an error"},
{"property": "C185", "status": "partial", "theorems": ["Verif.Select.C185_objects", "Verif.Select.C185_declared", "Verif.Select.C185_types_partial", "Verif.Select.C185_refs_partial"], "note": "the objects of any entity are characterised; related to the declarations with names all different"},
{"property": "C186", "status": "partial", "theorems": ["Verif.Select.C186_object", "Verif.Select.C186_type", "Verif.Select.C186_collides_partial", "Verif.Select.C186_read", "Verif.Select.C186_nothing_violated", "Verif.Select.C186_selection_violated"], "note": "refuted for selections without objects, which collide with everything, and for selections as the entity given, for which the evaluation throws"},
{"property": "C187", "status": "partial", "theorems": ["Verif.Enum.C187_literal_partial", "Verif.Enum.C187_parameter", "Verif.Enum.C187_unsupported", "Verif.Enum.C187_empty", "Verif.Enum.C187_empty_violated", "Verif.Enum.C187_refused_violated"], "note": "for texts that are not empty; refuted for the empty text, which gives the first value of any enumeration, even one that is not supported"},
{"property": "C188", "status": "proved", "theorems": ["Verif.Enum.C188_round_trip", "Verif.Enum.C188_apart"], "note": ""},
{"property": "C189", "status": "partial", "theorems": ["Verif.Request.C189_accepted", "Verif.Request.C189_refused_partial", "Verif.Request.C189_told_partial", "Verif.Request.C189_last_partial", "Verif.Request.C189_route", "Verif.Request.C189_refused_violated", "Verif.Request.C189_off_lane_violated", "Verif.Request.C189_silent_violated", "Verif.Request.C189_pedestrian_goals_violated"], "note": "A goal off the lanes throws but ends what the entity was doing. Off the lanes a route is lost and a goal has the old route followed, both without an error. A lane change asked of a pedestrian, or to where there is no lane, is ignored without an error. A pedestrian with a trajectory keeps the old goals."},
{"property": "C19", "status": "proved", "theorems": ["Verif.Light.C19_identity", "Verif.Light.C19_emplace"], "note": ""},
{"property": "C190", "status": "partial", "theorems": ["Verif.Request.C190_set", "Verif.Request.C190_refused", "Verif.Request.C190_kept", "Verif.Request.C190_last", "Verif.Request.C190_never_negative", "Verif.Request.C190_defaults", "Verif.Request.C190_reset", "Verif.Request.C190_vehicle", "Verif.Request.C190_within", "Verif.Request.C190_others", "Verif.Request.C190_ego_violated", "Verif.Request.C190_misc_violated"], "note": "The ego accepts a negative speed limit; a misc object ignores limits without an error."},
{"property": "C191", "status": "partial", "theorems": ["Verif.Request.C191_request", "Verif.Request.C191_pace", "Verif.Request.C191_gentle", "Verif.Request.C191_error", "Verif.Request.C191_over", "Verif.Request.C191_in_step", "Verif.Request.C191_forwards_partial", "Verif.Request.C191_backwards_violated", "Verif.Request.C191_standing_violated", "Verif.Request.C191_final_speed_violated"], "note": "A slow entity may be told to go backwards; if the other one stands the entity is told to go faster and faster; when the job is over the speed is not the final one asked for."},
{"property": "C192", "status": "partial", "theorems": ["Verif.Request.C192_complains", "Verif.Request.C192_names", "Verif.Request.C192_silent", "Verif.Request.C192_first", "Verif.Request.C192_end_violated"], "note": "At the end of the lanes nothing is checked."},
{"property": "C193", "status": "partial", "theorems": ["Verif.Report.C193_totals", "Verif.Report.C193_suites", "Verif.Report.C193_cases", "Verif.Report.C193_passed", "Verif.Report.C193_name", "Verif.Report.C193_same_name_violated"], "note": "Scenarios whose directories and files have the same names are one case."},
{"property": "C194", "status": "partial", "theorems": ["Verif.Report.C194_waits", "Verif.Report.C194_starts", "Verif.Report.C194_at_once", "Verif.Report.C194_zero_violated"], "note": "The first evaluation is at one step, not at zero."},
{"property": "C195", "status": "partial", "theorems": ["Verif.Report.C195_there", "Verif.Report.C195_says", "Verif.Report.C195_written", "Verif.Report.C195_mean", "Verif.Report.C195_variance", "Verif.Report.C195_stale_violated"], "note": "A scenario that cannot be configured gets the statistics of the one before it."},
{"property": "C196", "status": "partial", "theorems": ["Verif.Report.C196_period_partial", "Verif.Report.C196_exact", "Verif.Report.C196_drift_violated", "Verif.Report.C196_fast_violated"], "note": "The period is cut down to whole milliseconds: at 30 frames a second simulated time runs ahead."},
{"property": "C197", "status": "partial", "theorems": ["Verif.Distribution.C197_scenario", "Verif.Distribution.C197_one", "Verif.Distribution.C197_element_partial", "Verif.Distribution.C197_rejected_violated", "Verif.Distribution.C197_load_violated", "Verif.Distribution.C197_handed_violated"], "note": "Scenarios are; refuted for every distribution of the schema, because the element is looked for inside of itself."},
{"property": "C198", "status": "partial", "theorems": ["Verif.Distribution.C198_set", "Verif.Distribution.C198_user", "Verif.Distribution.C198_poisson_partial", "Verif.Distribution.C198_variance_violated", "Verif.Distribution.C198_range_violated", "Verif.Distribution.C198_uniform_violated", "Verif.Distribution.C198_histogram_violated", "Verif.Distribution.C198_bins_violated", "Verif.Distribution.C198_logNormal_violated"], "note": "Sets are drawn from in the ratio of weights; refuted for ranges, variances, uniform distributions and histograms."},
{"property": "C199", "status": "partial", "theorems": ["Verif.Distribution.C199_read_partial", "Verif.Distribution.C199_seed_partial", "Verif.Distribution.C199_others_violated", "Verif.Distribution.C199_seed_violated"], "note": "For one parameter and whole seeds of 32 bits."},
{"property": "C20", "status": "proved", "theorems": ["Verif.Light.C20_bulb", "Verif.Light.C20_names", "Verif.Light.C20_light"], "note": "all 176 bulbs by cases; lights of any size by induction"},
{"property": "C200", "status": "partial", "theorems": ["Verif.Distribution.C200_read_partial", "Verif.Distribution.C200_step_violated", "Verif.Distribution.C200_found_violated"], "note": "For the elements by themselves, but for the step; refuted for the element that contains them."},
{"property": "C201", "status": "partial", "theorems": ["Verif.Literal.C201_integer", "Verif.Literal.C201_unsigned_partial", "Verif.Literal.C201_round_trip", "Verif.Literal.C201_negative_violated"], "note": "A negative number is read as an unsigned one modulo the range."},
{"property": "C202", "status": "partial", "theorems": ["Verif.Literal.C202_attribute", "Verif.Literal.C202_infinity", "Verif.Literal.C202_figures_violated", "Verif.Literal.C202_rest_violated"], "note": "The words 1 and 0 of the schema are refused; the value of a parameter may have white space before it and anything after it."},
{"property": "C203", "status": "partial", "theorems": ["Verif.Literal.C203_value_partial", "Verif.Literal.C203_declared", "Verif.Literal.C203_all", "Verif.Literal.C203_names_violated", "Verif.Literal.C203_date_violated"], "note": "Values as in C201 and C202; names with forbidden symbols are accepted, and dates are not looked at."},
{"property": "C204", "status": "partial", "theorems": ["Verif.Routing.C204_property", "Verif.Routing.C204_parameter", "Verif.Routing.C204_lanes", "Verif.Routing.C204_error", "Verif.Routing.C204_each", "Verif.Routing.C204_silent_violated", "Verif.Routing.C204_ambiguous_violated"], "note": "Parameters of another type and ambiguous ones are passed over in silence."},
{"property": "C205", "status": "partial", "theorems": ["Verif.Routing.C205_actors", "Verif.Routing.C205_route_partial", "Verif.Routing.C205_closed_violated"], "note": "A closed route is as an open one, and strategies are not looked at."},
{"property": "C206", "status": "partial", "theorems": ["Verif.Routing.C206_lane", "Verif.Routing.C206_map", "Verif.Routing.C206_offLane_violated", "Verif.Routing.C206_order_violated"], "note": "An entity that is not on a lane passes over a route in silence; the order is replaced although there is an error."},
{"property": "C207", "status": "partial", "theorems": ["Verif.Contact.C207_contact_partial", "Verif.Contact.C207_symmetric", "Verif.Contact.C207_tilted_violated"], "note": "Boxes that are tilted meet without a collision. boost::geometry::intersects is a parameter, with what it promises as a hypothesis."},
{"property": "C208", "status": "partial", "theorems": ["Verif.Contact.C208_crossing_partial", "Verif.Contact.C208_error", "Verif.Contact.C208_range_violated"], "note": "What C92 lacks; a range may be passed over."},
{"property": "C209", "status": "partial", "theorems": ["Verif.Contact.C209_level_partial", "Verif.Contact.C209_empty", "Verif.Contact.C209_whole", "Verif.Contact.C209_two_violated", "Verif.Contact.C209_between_violated", "Verif.Contact.C209_slope_violated"], "note": "Only the control points in the part count: entities on a slope or between control points are left out, and splines of two points are an error."},
{"property": "C21", "status": "partial", "theorems": ["Verif.Light.C21_replaces_partial", "Verif.Light.C21_add_clear", "Verif.Light.C21_v2i", "Verif.Light.C21_detected", "Verif.Light.C21_rejects", "Verif.Light.C21_violated"], "note": "a described text replaces the bulbs exactly and any other text is rejected, but a rejected text has cleared or overwritten the light already (refuted half)"},
{"property": "C210", "status": "partial", "theorems": ["Verif.Contact.C210_seen_partial", "Verif.Contact.C210_found", "Verif.Contact.C210_order", "Verif.Contact.C210_error", "Verif.Contact.C210_altitude_violated", "Verif.Contact.C210_side_violated"], "note": "Altitudes are not looked at, and of entities in one piece the first of the hash map is named. Entities are seen for sure only at the ends of the pieces. boost::geometry::intersects is a parameter, with what it promises as a hypothesis."},
{"property": "C211", "status": "partial", "theorems": ["Verif.Maps.C211_directory_partial", "Verif.Maps.C211_order", "Verif.Maps.C211_refusal", "Verif.Maps.C211_named_partial", "Verif.Maps.C211_whole", "Verif.Maps.C211_first_violated", "Verif.Maps.C211_bare_violated"], "note": "The last file is taken, not the first; an .osm file named without a directory is refused."},
{"property": "C212", "status": "proved", "theorems": ["Verif.Noise.C212_velocity", "Verif.Noise.C212_silent"], "note": ""},
{"property": "C213", "status": "partial", "theorems": ["Verif.Noise.C213_odometry_partial", "Verif.Noise.C213_position", "Verif.Noise.C213_silent", "Verif.Noise.C213_yaw", "Verif.Noise.C213_roll", "Verif.Noise.C213_roll_violated"], "note": "An error of the roll turns the vehicle about an axis of the map. That the angles taken by Eigen describe the orientation is a hypothesis."},
{"property": "C214", "status": "partial", "theorems": ["Verif.Noise.C214_pose_partial", "Verif.Noise.C214_multiplicative_violated"], "note": "Multiplicative errors have no effect."},
{"property": "C215", "status": "partial", "theorems": ["Verif.Noise.C215_seed_partial", "Verif.Noise.C215_range_violated"], "note": "No seed is refused: one out of range is taken modulo 2^32."},
{"property": "C216", "status": "partial", "theorems": ["Verif.Noise.C216_entity", "Verif.Noise.C216_legacy_partial", "Verif.Noise.C216_override_partial", "Verif.Noise.C216_gravity_violated", "Verif.Noise.C216_heading_violated"], "note": "Gravity is turned the wrong way: it moves with the heading of the vehicle."},
{"property": "C217", "status": "proved", "theorems": ["Verif.Matching.C217_angles"], "note": ""},
{"property": "C218", "status": "partial", "theorems": ["Verif.Matching.C218_place", "Verif.Matching.C218_no_place", "Verif.Matching.C218_beside_partial"], "note": "That the crossing is found is shown for level poses and lanes of three or more points, without crossings at joints (C92) and for two points in C79."},
{"property": "C219", "status": "partial", "theorems": ["Verif.Matching.C219_back", "Verif.Matching.C219_skew_violated", "Verif.Matching.C219_pitch_violated"], "note": "The position is kept exactly if the centre line is met at right angles; without the pitch of the road the orientation is lost on a slope."},
{"property": "C22", "status": "partial", "theorems": ["Verif.Light.C22_set_clear_partial", "Verif.Light.C22_add_partial", "Verif.Light.C22_history_partial", "Verif.Light.C22_only_enabled", "Verif.Light.C22_feature", "Verif.Light.C22_violated"], "note": "proved for lights addressed by their own id and successful calls; refuted for regulatory element ids"},
{"property": "C220", "status": "partial", "theorems": ["Verif.Matching.C220_closest", "Verif.Matching.C220_all", "Verif.Matching.C220_order", "Verif.Matching.C220_outline_partial", "Verif.Matching.C220_outline_violated"], "note": "The outline that is matched is only a diagonal of the box."},
{"property": "C221", "status": "proved", "theorems": ["Verif.Matching.C221_route", "Verif.Matching.C221_pedestrian", "Verif.Matching.C221_all", "Verif.Matching.C221_alternative"], "note": "Lanelet2 is a parameter, and so is making places canonical, which is modelled in other areas."},
{"property": "C222", "status": "partial", "theorems": ["Verif.Matching.C222_canonical", "Verif.Matching.C222_slope_partial", "Verif.Matching.C222_align", "Verif.Matching.C222_reverse_violated"], "note": "An entity that faces backwards on a slope gets the pitch of the lane with the wrong sign."},
{"property": "C223", "status": "partial", "theorems": ["Verif.Pace.C223_time_partial", "Verif.Pace.C223_superseded_violated", "Verif.Pace.C223_auto_violated"], "note": "Said up to the frame in which the target is nearly reached. A request made while another one is under way loses its limit; braking with the automatic transition gives a negative limit."},
{"property": "C224", "status": "partial", "theorems": ["Verif.Pace.C224_up", "Verif.Pace.C224_down_partial", "Verif.Pace.C224_limit_up", "Verif.Pace.C224_limit_down", "Verif.Pace.C224_rate_violated"], "note": "A rate without a sign, as scenarios have it, makes the entity start to brake late."},
{"property": "C225", "status": "partial", "theorems": ["Verif.Pace.C225_step_partial", "Verif.Pace.C225_no_time", "Verif.Pace.C225_no_constraint_violated"], "note": "Without a constraint a step changes nothing at once."},
{"property": "C226", "status": "partial", "theorems": ["Verif.Pace.C226_missing", "Verif.Pace.C226_continuous_time", "Verif.Pace.C226_time", "Verif.Pace.C226_own", "Verif.Pace.C226_step", "Verif.Pace.C226_unconstrained", "Verif.Pace.C226_follows_partial", "Verif.Pace.C226_first_frame_violated", "Verif.Pace.C226_disappears_violated"], "note": "The limit is not in force in the first frame, and the frame in which the other entity has disappeared fails."},
{"property": "C227", "status": "partial", "theorems": ["Verif.Pace.C227_restored_partial", "Verif.Pace.C227_set_before_violated", "Verif.Pace.C227_superseded_violated"], "note": "The limits after a change are the default ones, whatever they were before; a second request has no limit of its own."},
{"property": "C228", "status": "partial", "theorems": ["Verif.Pace.C228_kept_partial", "Verif.Pace.C228_time_violated", "Verif.Pace.C228_first_frame_violated"], "note": "With a time the speed is not kept; before the first frame the request is undefined behaviour."},
{"property": "C229", "status": "partial", "theorems": ["Verif.Process.C229_asked", "Verif.Process.C229_ended_partial", "Verif.Process.C229_finishes", "Verif.Process.C229_killed_partial", "Verif.Process.C229_hangs_violated", "Verif.Process.C229_interrupted_violated", "Verif.Process.C229_left_violated", "Verif.Process.C229_stale_violated"], "note": "Nothing puts Autoware in a group of its own, so that the kill reaches nothing and the removal waits for ever for an Autoware that does not end. An interrupted wait leaves Autoware running. Nodes of a launch that has ended are left. In a later scenario the end of the recorder is taken for that of Autoware."},
{"property": "C23", "status": "proved", "theorems": ["Verif.Scope.C23_found", "Verif.Scope.C23_ambiguous", "Verif.Scope.C23_missing", "Verif.Scope.C23_scopes"], "note": "frame trees of any depth"},
{"property": "C230", "status": "partial", "theorems": ["Verif.Process.C230_sent_partial", "Verif.Process.C230_others_partial", "Verif.Process.C230_broadcast_violated"], "note": "If the recorder cannot be started, every process is sent the signal."},
{"property": "C231", "status": "proved", "theorems": ["Verif.Process.C231_noticed", "Verif.Process.C231_running", "Verif.Process.C231_once"], "note": ""},
{"property": "C232", "status": "partial", "theorems": ["Verif.Process.C232_ended_partial", "Verif.Process.C232_shutdown_violated"], "note": "At a shutdown the recorder is neither told to end nor waited for."},
{"property": "C233", "status": "partial", "theorems": ["Verif.Process.C233_waited_partial", "Verif.Process.C233_returns", "Verif.Process.C233_stays", "Verif.Process.C233_interrupted_violated"], "note": "An interrupted wait ends while the command runs."},
{"property": "C234", "status": "proved", "theorems": ["Verif.Markers.C234_shown"], "note": "Said of all but the goals, which C236 is about."},
{"property": "C235", "status": "partial", "theorems": ["Verif.Markers.C235_gone_partial", "Verif.Markers.C235_later_partial", "Verif.Markers.C235_gone_violated"], "note": "Blank markers, which the component adds by mistake for goals that have been reached, can stay for ever."},
{"property": "C236", "status": "partial", "theorems": ["Verif.Markers.C236_goals_partial", "Verif.Markers.C236_fresh", "Verif.Markers.C236_next_goal_violated"], "note": "Said of an entity that has as many goals as any has had, and at most 90. When some goals have been reached the markers of the next ones can be deleted together with those."},
{"property": "C237", "status": "proved", "theorems": ["Verif.Markers.C237_boxes", "Verif.Markers.C237_paths"], "note": ""},
{"property": "C238", "status": "proved", "theorems": ["Verif.Markers.C238_edges", "Verif.Markers.C238_once"], "note": ""},
{"property": "C239", "status": "partial", "theorems": ["Verif.Lamps.C239_condition", "Verif.Lamps.C239_words", "Verif.Lamps.C239_stop", "Verif.Lamps.C239_refused", "Verif.Lamps.C239_set_partial", "Verif.Lamps.C239_none_violated", "Verif.Lamps.C239_list_violated"], "note": "A light set to \"none\" shows a green bulb that is off and does not meet the condition \"none\". A text of several bulbs can be set but is an error in a condition."},
{"property": "C24", "status": "partial", "theorems": ["Verif.Expr.C24_grammar", "Verif.Expr.C24_precedence", "Verif.Expr.C24_returns", "Verif.Expr.C24_only_expressions", "Verif.Expr.C24_typing_partial", "Verif.Expr.C24_error_propagates", "Verif.Expr.C24_integers", "Verif.Expr.C24_promotions", "Verif.Expr.C24_conversions", "Verif.Expr.C24_logic", "Verif.Expr.C24_minus", "Verif.Expr.C24_functions", "Verif.Expr.C24_doubles", "Verif.Expr.C24_violated", "Verif.Expr.C24_sqrt_not_real", "Verif.Expr.C24_unsigned_wraps_violated"], "note": "token level grammar; precedence, associativity and rejection of everything else proved for all inputs; typing refuted for / (and sqrt, unsigned)"},
{"property": "C240", "status": "partial", "theorems": ["Verif.Lamps.C240_bulbs", "Verif.Lamps.C240_confidence", "Verif.Lamps.C240_message", "Verif.Lamps.C240_look_partial", "Verif.Lamps.C240_look_violated"], "note": "A condition about a light that was not known makes it appear in the message without bulbs."},
{"property": "C241", "status": "partial", "theorems": ["Verif.Lamps.C241_shown_partial", "Verif.Lamps.C241_known", "Verif.Lamps.C241_ids_violated", "Verif.Lamps.C241_kinds_violated"], "note": "Numbers of markers are cut to 32 bits, so lights whose ids agree below 2^30 hide each other. Conventional and V2I lights share the topic and each update removes the markers of the other kind."},
{"property": "C242", "status": "proved", "theorems": ["Verif.Lamps.C242_rate", "Verif.Lamps.C242_publish", "Verif.Lamps.C242_bad"], "note": "Which periods a timer can have is a parameter, since timers are not in this repository. When a timer is called is not modelled."},
{"property": "C243", "status": "partial", "theorems": ["Verif.Reach.C243_frames", "Verif.Reach.C243_none", "Verif.Reach.C243_ego_partial", "Verif.Reach.C243_follows_violated", "Verif.Reach.C243_late_violated"], "note": "The frames stay where the first one was, so the frame \"ego\" does not follow the Ego, and it is in the centre of the others if the Ego was added later."},
{"property": "C244", "status": "proved", "theorems": ["Verif.Reach.C244_on", "Verif.Reach.C244_near", "Verif.Reach.C244_before", "Verif.Reach.C244_after", "Verif.Reach.C244_beside", "Verif.Reach.C244_tolerance"], "note": "Said of roads on a line, and for the ways the map finds."},
{"property": "C245", "status": "partial", "theorems": ["Verif.Reach.C245_end", "Verif.Reach.C245_stopped", "Verif.Reach.C245_stays", "Verif.Reach.C245_on_road_partial", "Verif.Reach.C245_moved_partial"], "note": "That the entity is on the road is said of routes in which no lanelet has two successors."},
{"property": "C246", "status": "partial", "theorems": ["Verif.Reach.C246_measured_partial", "Verif.Reach.C246_time_violated"], "note": "With a constraint of time the seconds are taken for metres, which is an error if the road ends before."},
{"property": "C247", "status": "proved", "theorems": ["Verif.Release.C247_order", "Verif.Release.C247_v2i", "Verif.Release.C247_detector", "Verif.Release.C247_headers", "Verif.Release.C247_undated"], "note": "Months and days are any numbers of two digits."},
{"property": "C248", "status": "partial", "theorems": ["Verif.Release.C248_lights_partial", "Verif.Release.C248_dated_partial", "Verif.Release.C248_older_violated", "Verif.Release.C248_foreign_violated"], "note": "Releases before 6 September 2023 have no detector although everything else accepts them; texts are compared as a whole, so some that name no release are accepted for lights."},
{"property": "C249", "status": "proved", "theorems": ["Verif.Release.C249_convert", "Verif.Release.C249_one", "Verif.Release.C249_date", "Verif.Release.C249_latest"], "note": "For a build with both messages. Threads are not modelled: a message is kept in one step."},
{"property": "C25", "status": "proved", "theorems": ["Verif.Registry.C25_registry", "Verif.Registry.C25_refused_changes_nothing", "Verif.Registry.C25_standalone", "Verif.Registry.C25_after_close_violated"], "note": "for every request history; after the connection is closed a spawn that throws is registered nevertheless (refuted corner)"},
{"property": "C250", "status": "proved", "theorems": ["Verif.Release.C250_scenario", "Verif.Release.C250_vehicle", "Verif.Release.C250_given", "Verif.Release.C250_lights", "Verif.Release.C250_launch"], "note": "Which of two arguments of the same name counts is decided by the launcher, which is not in this repository: taken to be the last one. Parameters that cannot be read are not modelled."},
{"property": "C251", "status": "proved", "theorems": ["Verif.Spawn.C251_world", "Verif.Spawn.C251_lane", "Verif.Spawn.C251_usable", "Verif.Spawn.C251_altitude", "Verif.Spawn.C251_error"], "note": "The area is that of the pose drawn: that corners of the box may be outside of it is shown in Traffic. Laws of cosine and sine and the range of the radius are assumed. Matching to lanes is in Matching."},
{"property": "C252", "status": "proved", "theorems": ["Verif.Spawn.C252_path", "Verif.Spawn.C252_all", "Verif.Spawn.C252_filter", "Verif.Spawn.C252_right", "Verif.Spawn.C252_rights", "Verif.Spawn.C252_conflicts", "Verif.Spawn.C252_any"], "note": "Which lanelets are in conflict is decided by Lanelet2. Ids of lanelets in a map are different."},
{"property": "C253", "status": "proved", "theorems": ["Verif.Spawn.C253_least", "Verif.Spawn.C253_error"], "note": "The distance of two lines is a parameter; distances are at most the largest number. An entity has an outline."},
{"property": "C254", "status": "partial", "theorems": ["Verif.Spawn.C254_first_partial", "Verif.Spawn.C254_stale", "Verif.Spawn.C254_second_violated"], "note": "Proved for the controllers made before markers were first published in a process. The markers are kept in a static variable, so any later controller in the same process shows the ends of the road of the first: proved as C254_second_violated. Colours and heights of markers are left out."},
{"property": "C26", "status": "proved", "theorems": ["Verif.Registry.C26_pairs"], "note": "any iteration order of the hash table"},
{"property": "C27", "status": "proved", "theorems": ["Verif.Job.C27_calls", "Verif.Job.C27_at_most_one", "Verif.Job.C27_append", "Verif.Job.C27_append_effects", "Verif.Job.C27_update", "Verif.Job.C27_update_effects", "Verif.Job.C27_duration"], "note": ""},
{"property": "C28", "status": "partial", "theorems": ["Verif.Entity.C28_frames_partial", "Verif.Entity.C28_relative_partial", "Verif.Entity.C28_at_once_partial", "Verif.Entity.C28_violated", "Verif.Entity.C28_ignored_violated"], "note": "from the end of the first frame on, for every history; refuted between the request and the end of that frame while an older request is active, and for requests for the current speed"},
{"property": "C29", "status": "partial", "theorems": ["Verif.Entity.C29_partial", "Verif.Entity.C29_monotone", "Verif.Entity.C29_violated"], "note": "exact for every history without a frame at the end of the lanelets; the stand-still duration is refuted there"},
{"property": "C30", "status": "proved", "theorems": ["Verif.Clock.C30_simulation_time", "Verif.Clock.C30_before_start", "Verif.Clock.C30_after_start", "Verif.Clock.C30_start_twice", "Verif.Clock.C30_step_mirrored", "Verif.Clock.C30_exact"], "note": ""},
{"property": "C31", "status": "proved", "theorems": ["Verif.Traffic.C31_spawned", "Verif.Traffic.C31_count", "Verif.Traffic.C31_schedule_independent", "Verif.Traffic.C31_start", "Verif.Traffic.C31_terminates", "Verif.Traffic.C31_names_distinct", "Verif.Traffic.C31_negative_rate_violated"], "note": "for positive rates; a negative rate makes the first execution loop for ever"},
{"property": "C32", "status": "proved", "theorems": ["Verif.Traffic.C32_sink", "Verif.Traffic.C32_sinks"], "note": ""},
{"property": "C33", "status": "partial", "theorems": ["Verif.Speed.C33_speed_limit", "Verif.Speed.C33_no_overshoot", "Verif.Speed.C33_acceleration_partial", "Verif.Speed.C33_jerk_partial", "Verif.Speed.C33_jerk_violated", "Verif.Speed.C33_beyond_limit_violated"], "note": "speed limit and target are always respected; the limits on acceleration and jerk are not when the entity is beyond its speed limit or its acceleration points away from the target (refuted)"},
{"property": "C34", "status": "proved", "theorems": ["Verif.Speed.C34_converges"], "note": "over every archimedean ordered field, without rounding"},
{"property": "C35", "status": "proved", "theorems": ["Verif.Route.C35_suffix", "Verif.Route.C35_dropped", "Verif.Route.C35_whole", "Verif.Route.C35_cancelled"], "note": ""},
{"property": "C36", "status": "proved", "theorems": ["Verif.TaskQueue.C36_order", "Verif.TaskQueue.C36_front_defined", "Verif.TaskQueue.C36_progress"], "note": "every interleaving of the dispatcher and any number of clients, at the level of single accesses to shared data"},
{"property": "C37", "status": "proved", "theorems": ["Verif.TaskQueue.C37_nothing_started", "Verif.TaskQueue.C37_recorded", "Verif.TaskQueue.C37_reported"], "note": "from the moment the dispatcher has caught the error; the unsynchronised access to the stored exception is treated as atomic"},
{"property": "C38", "status": "proved", "theorems": ["Verif.TaskQueue.C38_empty_means_finished", "Verif.TaskQueue.C38_failed_never_empty"], "note": ""},
{"property": "C39", "status": "proved", "theorems": ["Verif.Autoware.C39_driving", "Verif.Autoware.C39_initializing", "Verif.Autoware.C39_others"], "note": "all codes, including those without a name"},
{"property": "C40", "status": "proved", "theorems": ["Verif.Autoware.C40_retries", "Verif.Autoware.C40_available", "Verif.Autoware.C40_all_results", "Verif.Autoware.C40_terminates"], "note": ""},
{"property": "C41", "status": "proved", "theorems": ["Verif.Detection.C41_delay_queue", "Verif.Detection.C41_rate", "Verif.Detection.C41_exact"], "note": "every schedule; with a constant period the delay is exact"},
{"property": "C42", "status": "partial", "theorems": ["Verif.Detection.C42_only_in_range", "Verif.Detection.C42_all_in_range", "Verif.Detection.C42_all_published_partial", "Verif.Detection.C42_known_published_partial", "Verif.Detection.C42_first_frame_violated"], "note": "proved for the noise models 1 and 2; with the models 3 and 4 an entity is missing in the first frame in which it is seen (refuted)"},
{"property": "C43", "status": "partial", "theorems": ["Verif.Interpreter.C43_classification", "Verif.Interpreter.C43_defined", "Verif.Interpreter.C43_at_most_one", "Verif.Interpreter.C43_one_verdict_partial", "Verif.Interpreter.C43_timeout_violated"], "note": "exactly one correct verdict for every scenario that ends by itself; a scenario that runs into the time limit gets no recorded verdict (refuted)"},
{"property": "C44", "status": "partial", "theorems": ["Verif.Preprocessor.C44_queue_partial", "Verif.Preprocessor.C44_after_failure_partial", "Verif.Preprocessor.C44_answer", "Verif.Preprocessor.C44_no_output", "Verif.Preprocessor.C44_violated", "Verif.Preprocessor.C44_distribution_violated"], "note": "proved while no load fails; a failing load discards scenarios loaded before (refuted)"},
{"property": "C45", "status": "proved", "theorems": ["Verif.Condition.C45_rule", "Verif.Condition.C45_examined", "Verif.Condition.C45_read"], "note": ""},
{"property": "C46", "status": "partial", "theorems": ["Verif.Parameter.C46_integer", "Verif.Parameter.C46_other_types", "Verif.Parameter.C46_unsigned_partial", "Verif.Parameter.C46_short_partial", "Verif.Parameter.C46_operations", "Verif.Parameter.C46_rules", "Verif.Parameter.C46_meaning", "Verif.Parameter.C46_measured_partial", "Verif.Parameter.C46_unsigned_violated", "Verif.Parameter.C46_large_integer_violated", "Verif.Parameter.C46_measured_violated"], "note": "exact for integer parameters while double arithmetic is exact, refuted for unsigned ones, whose operand is truncated first; the rules are consistent for parameters, refuted for measurements of entities, where equality alone is approximate"},
{"property": "C47", "status": "partial", "theorems": ["Verif.Scope.C47_relative_partial", "Verif.Scope.C47_absolute_partial", "Verif.Scope.C47_absolute_errors", "Verif.Scope.C47_relative_ambiguous", "Verif.Scope.C47_violated"], "note": "existing paths resolve to the named scope; refuted for unknown qualifiers, which are ignored"},
{"property": "C48", "status": "partial", "theorems": ["Verif.Registry.C48_mirror", "Verif.Registry.C48_standalone_violated"], "note": "proved for every request history with an open connection; refuted for standalone mode, where frames are sent to a simulator that was told of no entity"},
{"property": "C49", "status": "partial", "theorems": ["Verif.Registry.C49_others_partial", "Verif.Registry.C49_violated"], "note": "no other entity is affected; the entity itself is read after it was destroyed"},
{"property": "C50", "status": "partial", "theorems": ["Verif.Traffic.C50_area_partial", "Verif.Traffic.C50_violated"], "note": "corners are within twice the radius; refuted for the radius itself (a parameter shadows the member holding the centre)"},
{"property": "C51", "status": "partial", "theorems": ["Verif.Autoware.C51_engage_partial", "Verif.Autoware.C51_plan_partial", "Verif.Autoware.C51_initialize_partial", "Verif.Autoware.C51_engage_completes", "Verif.Autoware.C51_plan_completes", "Verif.Autoware.C51_initialize_completes", "Verif.Autoware.C51_refused", "Verif.Autoware.C51_wrong_state", "Verif.Autoware.C51_wait_terminates", "Verif.Autoware.C51_engage_violated", "Verif.Autoware.C51_plan_violated"], "note": "proved while the state of Autoware does not fall back; refuted if it does, and for a route sent right after arrival"},
{"property": "C52", "status": "partial", "theorems": ["Verif.Detection.C52_plane_partial", "Verif.Detection.C52_violated"], "note": "proved when the plane is made anew; refuted otherwise, because the plane is remembered by orientation only"},
{"property": "C53", "status": "partial", "theorems": ["Verif.Detection.C53_range_partial", "Verif.Detection.C53_violated", "Verif.Detection.C53_zero_violated"], "note": "the range is proved; the configured values are never read, because the key built lacks a dot (refuted for every configuration)"},
{"property": "C54", "status": "proved", "theorems": ["Verif.Preprocessor.C54_overrides"], "note": ""},
{"property": "C55", "status": "partial", "theorems": ["Verif.Interpreter.C55_checker_partial", "Verif.Interpreter.C55_nothing_recorded", "Verif.Interpreter.C55_timeout_violated", "Verif.Interpreter.C55_invalid_violated", "Verif.Interpreter.C55_stale_violated"], "note": "proved if all scenarios are accepted and end by themselves; refuted for time-outs, invalid scenarios and results left by an earlier run"},
{"property": "C56", "status": "proved", "theorems": ["Verif.Parameter.C56_constraints"], "note": ""},
{"property": "C57", "status": "partial", "theorems": ["Verif.Speed.C57_terminates_partial", "Verif.Speed.C57_error_partial", "Verif.Speed.C57_distance_violated", "Verif.Speed.C57_no_braking_violated"], "note": "ends whenever braking is possible; refuted for the value, which can be negative, and for entities that cannot brake"},
{"property": "C58", "status": "partial", "theorems": ["Verif.Speed.C58_duration_partial", "Verif.Speed.C58_violated"], "note": "correct for accelerations that reach the acceleration limit; refuted for braking and for short accelerations"},
{"property": "C59", "status": "partial", "theorems": ["Verif.Speed.C59_time_constraint_partial", "Verif.Speed.C59_braking_violated"], "note": "correct for accelerations; refuted for braking, where the planned deceleration limit is negative"},
{"property": "C60", "status": "partial", "theorems": ["Verif.Lanelet.C60_canonical", "Verif.Lanelet.C60_terminates", "Verif.Lanelet.C60_idempotent", "Verif.Lanelet.C60_route_partial", "Verif.Lanelet.C60_route_violated"], "note": "complete without a route; with a route refuted when a lanelet has two successors in it"},
{"property": "C61", "status": "partial", "theorems": ["Verif.Lanelet.C61_along", "Verif.Lanelet.C61_terminates", "Verif.Lanelet.C61_route_partial"], "note": "complete without a route; with a route only if no lanelet has two successors in it"},
{"property": "C62", "status": "proved", "theorems": ["Verif.Lanelet.C62_following", "Verif.Lanelet.C62_previous", "Verif.Lanelet.C62_terminates", "Verif.Lanelet.C62_route", "Verif.Lanelet.C62_route_error"], "note": ""},
{"property": "C63", "status": "partial", "theorems": ["Verif.Lanelet.C63_alternatives_partial", "Verif.Lanelet.C63_complete", "Verif.Lanelet.C63_terminates", "Verif.Lanelet.C63_violated"], "note": "same place; refuted for on the road: alternatives beyond the end of a dead end are returned"},
{"property": "C64", "status": "partial", "theorems": ["Verif.Route.C64_passed_partial", "Verif.Route.C64_second_violated", "Verif.Route.C64_ahead_violated"], "note": "refuted for several waypoints in one lanelet and for unreachable waypoints; holds on the route otherwise"},
{"property": "C65", "status": "partial", "theorems": ["Verif.Route.C65_toward_waypoint_partial", "Verif.Route.C65_new_waypoints_violated", "Verif.Route.C65_second_waypoint_violated"], "note": "refuted while an earlier route is in force"},
{"property": "C66", "status": "partial", "theorems": ["Verif.Route.C66_graph_partial", "Verif.Route.C66_violated"], "note": "refuted when entities of several types plan routes: the configuration is static"},
{"property": "C67", "status": "partial", "theorems": ["Verif.Route.C67_shortest_partial", "Verif.Route.C67_violated"], "note": "refuted when some alternative is unreachable"},
{"property": "C68", "status": "partial", "theorems": ["Verif.Detection.C68_detection_process_partial", "Verif.Detection.C68_ends"], "note": "for noise model 2; the other models are not stated"},
{"property": "C69", "status": "proved", "theorems": ["Verif.Storyboard.C69_answered", "Verif.Storyboard.C69_start_has_cause", "Verif.Storyboard.C69_end_has_cause", "Verif.Storyboard.C69_action_running", "Verif.Storyboard.C69_action_starts", "Verif.Storyboard.C69_event_waits", "Verif.Storyboard.C69_event_fires", "Verif.Storyboard.C69_event_running", "Verif.Storyboard.C69_group_starts", "Verif.Storyboard.C69_group_running", "Verif.Storyboard.C69_act_waits", "Verif.Storyboard.C69_act_fires"], "note": ""},
{"property": "C70", "status": "partial", "theorems": ["Verif.Action.C70_exact", "Verif.Action.C70_reached", "Verif.Action.C70_ends", "Verif.Action.C70_one_actor_partial", "Verif.Action.C70_special", "Verif.Action.C70_violated"], "note": "exact for one actor; refuted for several, which are looked at one after the other: the exact condition is proved instead"},
{"property": "C71", "status": "proved", "theorems": ["Verif.Action.C71_requests", "Verif.Action.C71_ends"], "note": ""},
{"property": "C72", "status": "partial", "theorems": ["Verif.Action.C72_lane_change_partial", "Verif.Action.C72_trajectory_partial", "Verif.Action.C72_lane_change_violated", "Verif.Action.C72_selection_violated", "Verif.Action.C72_no_actors_violated"], "note": "exact conditions proved; refuted: a lane change action ends in its first frame, a selection counts as finished with its first member, without actors a trajectory action never ends"},
{"property": "C73", "status": "partial", "theorems": ["Verif.Action.C73_exact", "Verif.Action.C73_objects_partial", "Verif.Action.C73_violated"], "note": "holds for actors that are single objects; refuted for selections, whose members share one trajectory object"},
{"property": "C74", "status": "partial", "theorems": ["Verif.Action.C74_add_partial", "Verif.Action.C74_teleport_partial", "Verif.Action.C74_delete", "Verif.Action.C74_known", "Verif.Action.C74_deleted_violated", "Verif.Action.C74_mixed_violated"], "note": "holds for scenarios without deletions and actors that are entirely in the simulation or not at all; refuted otherwise"},
{"property": "C75", "status": "partial", "theorems": ["Verif.Action.C75_present", "Verif.Action.C75_absent_partial", "Verif.Action.C75_error_violated", "Verif.Action.C75_deleted_violated", "Verif.Action.C75_notEqualTo_violated"], "note": "refuted for acceleration and stand still, for deleted entities and for notEqualTo; holds otherwise"},
{"property": "C76", "status": "partial", "theorems": ["Verif.Action.C76_partial", "Verif.Action.C76_violated"], "note": "refuted for reversing entities"},
{"property": "C77", "status": "partial", "theorems": ["Verif.Geometry.isIntersect_iff_partial", "Verif.Geometry.isIntersect_tiny_violated", "Verif.Geometry.isIntersectAny_iff_partial"], "note": "exact unless an end is off the other line by less than the tolerance; refuted for short segments, for which the unscaled tolerance is too large"},
{"property": "C78", "status": "partial", "theorems": ["Verif.Geometry.getIntersection_partial", "Verif.Geometry.getIntersection_touching_violated"], "note": "for segments that are not parallel; refuted for segments on one line that touch in one point"},
{"property": "C79", "status": "proved", "theorems": ["Verif.Geometry.point_at_s", "Verif.Geometry.s_of_point", "Verif.Geometry.s_refused", "Verif.Geometry.s_of_crossing", "Verif.Geometry.s_of_pose", "Verif.Geometry.ofVector_spec"], "note": ""},
{"property": "C80", "status": "partial", "theorems": ["Verif.Geometry.relativePosition_side", "Verif.Geometry.relativePosition_left_violated", "Verif.Geometry.slope_partial", "Verif.Geometry.slope_leftward_violated", "Verif.Geometry.getLineSegments_mem"], "note": "refuted: the sign of relativePointPosition2D is the opposite of the documented one, slope refuses segments that lead to smaller x"},
{"property": "C81", "status": "proved", "theorems": ["Verif.Geometry.project_onSegment", "Verif.Geometry.project_closest", "Verif.Geometry.closestOnPolygon_closest"], "note": ""},
{"property": "C82", "status": "partial", "theorems": ["Verif.Geometry.closest_minimal", "Verif.Geometry.boxRelative_distance_partial", "Verif.Geometry.boxRelative_direction_violated", "Verif.Geometry.outline_corners"], "note": "the distance is right; refuted for the direction, which is reversed depending on which of the boxes has the closest corner"},
{"property": "C83", "status": "partial", "theorems": ["Verif.Geometry.transformPoint_rigid", "Verif.Geometry.transformPoint_nonunit_violated", "Verif.Geometry.relative_then_global", "Verif.Geometry.global_then_relative", "Verif.Geometry.relative_position", "Verif.Geometry.transformPoint_compose", "Verif.Geometry.transformPointSensor_partial", "Verif.Geometry.transformPointSensor_difference", "Verif.Geometry.transformPointSensor_turned_violated", "Verif.Geometry.truncate_spec", "Verif.Geometry.normalize_spec"], "note": "refuted for the variant with a sensor pose that is turned and for quaternions that are not of length one"},
{"property": "C84", "status": "proved", "theorems": ["Verif.Geometry.transformPoint_yaw", "Verif.Geometry.eulerToQuat_spec", "Verif.Geometry.directionToQuat_forward"], "note": "setRPY of tf2 is transcribed from its documentation"},
{"property": "C85", "status": "partial", "theorems": ["Verif.Geometry.slerp_zero", "Verif.Geometry.slerp_one", "Verif.Geometry.slerp_unit", "Verif.Geometry.slerp_yaw", "Verif.Geometry.slerp_long_way_violated", "Verif.Geometry.angleDifference_yaw"], "note": "refuted: the interpolation depends on the sign of the quaternion and may go the long way round"},
{"property": "C86", "status": "partial", "theorems": ["Verif.Geometry.solveLinear_exact", "Verif.Geometry.solveQuadratic_partial", "Verif.Geometry.solveQuadratic_small_violated", "Verif.Geometry.solveQuadratic_touching_violated", "Verif.Geometry.cubicGap_discriminant", "Verif.Geometry.solveCubic_partial", "Verif.Geometry.solveCubic_triple_violated", "Verif.Geometry.solveCubic_lost_violated", "Verif.Geometry.solveCubic_moved_violated"], "note": "exact when discriminant and leading coefficient are clear of the tolerance; refuted otherwise: roots are lost, moved or refused"},
{"property": "C87", "status": "proved", "theorems": ["Verif.Geometry.hermite_ends", "Verif.Geometry.hermite_only", "Verif.Geometry.tangent_derivative", "Verif.Geometry.normal_left"], "note": ""},
{"property": "C88", "status": "proved", "theorems": ["Verif.Geometry.make_points", "Verif.Geometry.spline_points", "Verif.Geometry.spline_continuous", "Verif.Geometry.two_points"], "note": "checkConnection, which can only fail by rounding, is left out"},
{"property": "C89", "status": "proved", "theorems": ["Verif.Geometry.index_back", "Verif.Geometry.sAt_back"], "note": ""},
{"property": "C90", "status": "proved", "theorems": ["Verif.Geometry.samples_spaced", "Verif.Geometry.samples_refused", "Verif.Geometry.trajectory_spaced"], "note": "orientation of the sampled poses not modelled"},
{"property": "C91", "status": "partial", "theorems": ["Verif.Geometry.collisions_defined", "Verif.Geometry.collisions_partial", "Verif.Geometry.collisionsPolygon_partial", "Verif.Geometry.collisions_overlap_violated"], "note": "exact strictly between the ends if the solver is (C86); refuted for a curve that runs along the line without meeting its ends"},
{"property": "C92", "status": "partial", "theorems": ["Verif.Geometry.spline_collisions_partial", "Verif.Geometry.spline_collision_partial", "Verif.Geometry.spline_segment_partial", "Verif.Geometry.spline_place_partial", "Verif.Geometry.collisions_range_violated", "Verif.Geometry.two_points_segment_violated", "Verif.Geometry.two_points_polygon_violated"], "note": "for three or more control points under the conditions of C91; refuted: a range of places is not respected, splines of two control points never cross a line and do not see the closing side of a polygon"},
{"property": "C93", "status": "partial", "theorems": ["Verif.Geometry.pointOffset_left", "Verif.Geometry.leftBounds_side", "Verif.Geometry.rightBounds_side", "Verif.Geometry.rightBounds_violated", "Verif.Geometry.bounds_defined"], "note": "refuted: the left and right bounds are exchanged"},
{"property": "C94", "status": "proved", "theorems": ["Verif.Vehicle.C94_gear", "Verif.Vehicle.C94_ungeared"], "note": ""},
{"property": "C95", "status": "partial", "theorems": ["Verif.Vehicle.C95_speed", "Verif.Vehicle.C95_history", "Verif.Vehicle.C95_history_vel_partial", "Verif.Vehicle.C95_steer_rate", "Verif.Vehicle.C95_speed_rate", "Verif.Vehicle.C95_speed_rate_geared", "Verif.Vehicle.C95_speed_rate_slope", "Verif.Vehicle.C95_reported", "Verif.Vehicle.C95_reported_change", "Verif.Vehicle.C95_park_violated", "Verif.Vehicle.C95_overshoot_violated"], "note": "refuted: a wrong gear stops the ego at once, with any deceleration; DELAY_STEER_VEL exceeds its limit when a step is longer than the time constant"},
{"property": "C96", "status": "partial", "theorems": ["Verif.Vehicle.C96_steer", "Verif.Vehicle.C96_dead_band", "Verif.Vehicle.C96_steer_history", "Verif.Vehicle.C96_steer_lag", "Verif.Vehicle.C96_steer_full", "Verif.Vehicle.C96_steer_lag_noGuard", "Verif.Vehicle.C96_acc_partial", "Verif.Vehicle.C96_acc_lag", "Verif.Vehicle.C96_acc_history_partial", "Verif.Vehicle.C96_speed_partial", "Verif.Vehicle.C96_speed_lag", "Verif.Vehicle.C96_windup_violated"], "note": "for steps not longer than the time constants; the acceleration only for scaling factors up to one: refuted for greater ones"},
{"property": "C97", "status": "proved", "theorems": ["Verif.Vehicle.C97_delay", "Verif.Vehicle.C97_ideal"], "note": ""},
{"property": "C98", "status": "proved", "theorems": ["Verif.Vehicle.C98_ideal_acc", "Verif.Vehicle.C98_ideal_vel", "Verif.Vehicle.C98_distance", "Verif.Vehicle.C98_rest", "Verif.Vehicle.C98_steady", "Verif.Vehicle.C98_turn"], "note": "exact positions are claimed for straight wheels only"},
{"property": "C99", "status": "partial", "theorems": ["Verif.Vehicle.C99_read", "Verif.Vehicle.C99_cell", "Verif.Vehicle.C99_node", "Verif.Vehicle.C99_outside", "Verif.Vehicle.C99_range", "Verif.Vehicle.C99_defined", "Verif.Vehicle.C99_followed", "Verif.Vehicle.C99_unread", "Verif.Vehicle.C99_unread_file", "Verif.Vehicle.C99_one_column_violated", "Verif.Vehicle.C99_descending_violated"], "note": "refuted for the check of the file: tables that make every step throw are accepted, unreadable ones mean no map"}
]}
