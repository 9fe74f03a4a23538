# Axioms of the claimed theorems

Output of `#print axioms` in `lean/Verif/Audit.lean`, as printed by `lake build`.

| theorem | axioms |
|---|---|
| `Verif.Action.C70_ends` | propext, Classical.choice, Quot.sound |
| `Verif.Action.C70_exact` | propext, Classical.choice, Quot.sound |
| `Verif.Action.C70_one_actor_partial` | propext, Classical.choice, Quot.sound |
| `Verif.Action.C70_reached` | propext, Classical.choice, Quot.sound |
| `Verif.Action.C70_special` | propext, Classical.choice, Quot.sound |
| `Verif.Action.C70_violated` | propext, Classical.choice, Quot.sound |
| `Verif.Action.C71_ends` | propext, Classical.choice, Quot.sound |
| `Verif.Action.C71_requests` | propext, Classical.choice, Quot.sound |
| `Verif.Action.C72_lane_change_partial` | propext, Classical.choice, Quot.sound |
| `Verif.Action.C72_lane_change_violated` | propext, Classical.choice, Quot.sound |
| `Verif.Action.C72_no_actors_violated` | propext |
| `Verif.Action.C72_selection_violated` | none |
| `Verif.Action.C72_trajectory_partial` | propext, Classical.choice, Quot.sound |
| `Verif.Action.C73_exact` | propext, Classical.choice, Quot.sound |
| `Verif.Action.C73_objects_partial` | propext, Classical.choice, Quot.sound |
| `Verif.Action.C73_violated` | propext, Classical.choice, Quot.sound |
| `Verif.Action.C74_add_partial` | propext, Classical.choice, Quot.sound |
| `Verif.Action.C74_delete` | propext, Quot.sound |
| `Verif.Action.C74_deleted_violated` | propext, Quot.sound |
| `Verif.Action.C74_known` | propext, Classical.choice, Quot.sound |
| `Verif.Action.C74_mixed_violated` | propext, Quot.sound |
| `Verif.Action.C74_teleport_partial` | propext, Classical.choice, Quot.sound |
| `Verif.Action.C75_absent_partial` | propext, Classical.choice, Quot.sound |
| `Verif.Action.C75_deleted_violated` | propext, Classical.choice, Quot.sound |
| `Verif.Action.C75_error_violated` | propext, Classical.choice, Quot.sound |
| `Verif.Action.C75_notEqualTo_violated` | propext, Classical.choice, Quot.sound |
| `Verif.Action.C75_present` | propext, Classical.choice, Quot.sound |
| `Verif.Action.C76_partial` | propext, Classical.choice, Quot.sound |
| `Verif.Action.C76_violated` | propext, Classical.choice, Quot.sound |
| `Verif.Autoware.C39_driving` | propext |
| `Verif.Autoware.C39_initializing` | propext |
| `Verif.Autoware.C39_others` | propext, Quot.sound |
| `Verif.Autoware.C40_all_results` | propext, Quot.sound |
| `Verif.Autoware.C40_available` | propext, Classical.choice, Quot.sound |
| `Verif.Autoware.C40_retries` | propext, Classical.choice, Quot.sound |
| `Verif.Autoware.C40_terminates` | propext, Classical.choice, Quot.sound |
| `Verif.Autoware.C51_engage_completes` | propext, Classical.choice, Quot.sound |
| `Verif.Autoware.C51_engage_partial` | propext, Classical.choice, Quot.sound |
| `Verif.Autoware.C51_engage_violated` | propext, Classical.choice, Quot.sound |
| `Verif.Autoware.C51_initialize_completes` | propext, Classical.choice, Quot.sound |
| `Verif.Autoware.C51_initialize_partial` | propext, Classical.choice, Quot.sound |
| `Verif.Autoware.C51_plan_completes` | propext, Classical.choice, Quot.sound |
| `Verif.Autoware.C51_plan_partial` | propext, Classical.choice, Quot.sound |
| `Verif.Autoware.C51_plan_violated` | propext, Classical.choice, Quot.sound |
| `Verif.Autoware.C51_refused` | propext, Classical.choice, Quot.sound |
| `Verif.Autoware.C51_wait_terminates` | propext, Classical.choice, Quot.sound |
| `Verif.Autoware.C51_wrong_state` | propext, Classical.choice, Quot.sound |
| `Verif.Behavior.C121_backward_partial` | propext, Classical.choice, Quot.sound |
| `Verif.Behavior.C121_backward_violated` | propext, Classical.choice, Quot.sound |
| `Verif.Behavior.C121_moves_once_partial` | propext, Classical.choice, Quot.sound |
| `Verif.Behavior.C121_off_lane_stops` | propext, Classical.choice, Quot.sound |
| `Verif.Behavior.C121_off_lane_violated` | propext, Classical.choice, Quot.sound |
| `Verif.Behavior.C122_at_once_violated` | propext, Classical.choice, Quot.sound |
| `Verif.Behavior.C122_no_lane_change` | propext, Classical.choice, Quot.sound |
| `Verif.Behavior.C122_off_lane` | propext, Classical.choice, Quot.sound |
| `Verif.Behavior.C122_trajectory` | propext, Classical.choice, Quot.sound |
| `Verif.Behavior.C122_trajectory_ends_partial` | propext, Classical.choice, Quot.sound |
| `Verif.Behavior.C123_front_violated` | propext, Classical.choice, Quot.sound |
| `Verif.Behavior.C123_memory_violated` | propext, Classical.choice, Quot.sound |
| `Verif.Behavior.C123_red_light_partial` | propext, Classical.choice, Quot.sound |
| `Verif.Behavior.C124_cut_in_violated` | propext, Classical.choice, Quot.sound |
| `Verif.Behavior.C124_front_partial` | propext, Classical.choice, Quot.sound |
| `Verif.Behavior.C125_creep_violated` | propext, Classical.choice, Quot.sound |
| `Verif.Behavior.C125_stop_line_partial` | propext, Classical.choice, Quot.sound |
| `Verif.Behavior.C125_tie_violated` | propext, Classical.choice, Quot.sound |
| `Verif.Behavior.C126_target_partial` | propext, Classical.choice, Quot.sound |
| `Verif.Behavior.C126_yield_violated` | propext, Classical.choice, Quot.sound |
| `Verif.Behavior.C127_best_effort_partial` | propext, Classical.choice, Quot.sound |
| `Verif.Behavior.C127_best_effort_violated` | propext, Classical.choice, Quot.sound |
| `Verif.Behavior.C127_forced_partial` | propext, Classical.choice, Quot.sound |
| `Verif.Behavior.C127_left_over_violated` | propext, Classical.choice, Quot.sound |
| `Verif.Behavior.C127_one_frame_violated` | propext, Classical.choice, Quot.sound |
| `Verif.Behavior.C145_crossing_partial` | propext, Classical.choice, Quot.sound |
| `Verif.Behavior.C145_memory_violated` | propext, Classical.choice, Quot.sound |
| `Verif.Cache.C149_activate_violated` | none |
| `Verif.Cache.C149_any_schedule` | propext, Quot.sound |
| `Verif.Cache.C149_ends` | propext, Quot.sound |
| `Verif.Cache.C149_held_partial` | propext |
| `Verif.Cache.C149_last_map` | propext |
| `Verif.Cache.C149_race_violated` | propext |
| `Verif.Cache.C149_stale_violated` | propext, Quot.sound |
| `Verif.Catalog.C180_accepts` | propext, Classical.choice, Quot.sound |
| `Verif.Catalog.C180_entry` | propext, Quot.sound |
| `Verif.Catalog.C180_many` | propext, Quot.sound |
| `Verif.Catalog.C180_missing` | propext, Classical.choice, Quot.sound |
| `Verif.Catalog.C181_errors` | propext, Classical.choice, Quot.sound |
| `Verif.Catalog.C181_found_partial` | propext, Classical.choice, Quot.sound |
| `Verif.Catalog.C181_from_file` | propext, Classical.choice, Quot.sound |
| `Verif.Catalog.C181_invalid_violated` | propext, Classical.choice, Quot.sound |
| `Verif.Catalog.C181_locations_partial` | propext, Quot.sound |
| `Verif.Catalog.C181_locations_violated` | propext |
| `Verif.Catalog.C181_order_partial` | propext, Classical.choice, Quot.sound |
| `Verif.Catalog.C181_order_violated` | propext, Classical.choice, Quot.sound |
| `Verif.Catalog.C181_read` | propext, Classical.choice, Quot.sound |
| `Verif.Catalog.C181_yaml` | propext, Classical.choice, Quot.sound |
| `Verif.Catalog.C182_assigned_violated` | propext |
| `Verif.Catalog.C182_ignored_violated` | propext |
| `Verif.Catalog.C182_values_partial` | propext, Quot.sound |
| `Verif.Catalog.C183_kind` | propext |
| `Verif.Catalog.C183_loud_partial` | propext |
| `Verif.Catalog.C183_silent_violated` | propext |
| `Verif.Catalog.C183_unsupported` | propext, Classical.choice, Quot.sound |
| `Verif.Clock.C30_after_start` | propext, Quot.sound |
| `Verif.Clock.C30_before_start` | propext |
| `Verif.Clock.C30_exact` | propext, Quot.sound |
| `Verif.Clock.C30_simulation_time` | propext |
| `Verif.Clock.C30_start_twice` | propext, Classical.choice, Quot.sound |
| `Verif.Clock.C30_step_mirrored` | propext |
| `Verif.Command.C136_alone` | propext, Quot.sound |
| `Verif.Command.C136_calls` | propext, Classical.choice, Quot.sound |
| `Verif.Command.C136_nothing_lost` | propext, Quot.sound |
| `Verif.Command.C136_parameters` | propext, Quot.sound |
| `Verif.Command.C136_space_violated` | propext, Quot.sound |
| `Verif.Command.C137_arguments_partial` | propext, Classical.choice, Quot.sound |
| `Verif.Command.C137_arguments_violated` | propext, Classical.choice, Quot.sound |
| `Verif.Command.C137_exit` | propext, Classical.choice, Quot.sound |
| `Verif.Command.C137_failed_partial` | propext, Classical.choice, Quot.sound |
| `Verif.Command.C137_failed_violated` | propext, Classical.choice, Quot.sound |
| `Verif.Command.C137_fault_arguments_violated` | propext, Classical.choice, Quot.sound |
| `Verif.Command.C137_fault_level` | propext, Classical.choice, Quot.sound |
| `Verif.Command.C137_faults` | propext, Classical.choice, Quot.sound |
| `Verif.Command.C137_features` | propext, Classical.choice, Quot.sound |
| `Verif.Command.C137_long` | propext, Classical.choice, Quot.sound |
| `Verif.Command.C137_misspelled_violated` | propext, Classical.choice, Quot.sound |
| `Verif.Command.C137_print` | propext, Classical.choice, Quot.sound |
| `Verif.Command.C137_program` | propext, Classical.choice, Quot.sound |
| `Verif.Command.C137_state` | propext, Classical.choice, Quot.sound |
| `Verif.Command.C137_two` | propext, Classical.choice, Quot.sound |
| `Verif.Command.C137_undefined` | propext, Classical.choice, Quot.sound |
| `Verif.Command.C137_walk` | propext, Classical.choice, Quot.sound |
| `Verif.Command.C138_count_violated` | propext, Classical.choice, Quot.sound |
| `Verif.Command.C138_empty_violated` | propext, Classical.choice, Quot.sound |
| `Verif.Command.C138_entity` | propext, Quot.sound |
| `Verif.Command.C138_heading_partial` | propext, Classical.choice, Quot.sound |
| `Verif.Command.C138_heading_violated` | propext, Classical.choice, Quot.sound |
| `Verif.Command.C138_headings` | propext, Classical.choice, Quot.sound |
| `Verif.Command.C138_messages` | propext, Classical.choice, Quot.sound |
| `Verif.Command.C138_text` | propext, Classical.choice, Quot.sound |
| `Verif.Command.C138_topic` | propext, Quot.sound |
| `Verif.Command.C138_unreadable` | propext, Classical.choice, Quot.sound |
| `Verif.Condition.C09_edges` | propext, Classical.choice, Quot.sound |
| `Verif.Condition.C09_first_evaluation` | propext, Classical.choice, Quot.sound |
| `Verif.Condition.C09_none` | propext, Classical.choice, Quot.sound |
| `Verif.Condition.C09_sticky` | propext, Classical.choice, Quot.sound |
| `Verif.Condition.C10_delay` | propext, Classical.choice, Quot.sound |
| `Verif.Condition.C10_sticky_stays` | propext, Classical.choice, Quot.sound |
| `Verif.Condition.C11_history` | propext, Classical.choice, Quot.sound |
| `Verif.Condition.C12_samples_every_condition` | propext, Quot.sound |
| `Verif.Condition.C12_trigger_value` | propext, Classical.choice, Quot.sound |
| `Verif.Condition.C13_active_group` | propext, Classical.choice, Quot.sound |
| `Verif.Condition.C13_no_active_group` | propext, Classical.choice, Quot.sound |
| `Verif.Condition.C14_latches_partial` | propext, Quot.sound |
| `Verif.Condition.C14_true_only_if_entered` | propext, Classical.choice, Quot.sound |
| `Verif.Condition.C14_violated` | none |
| `Verif.Condition.C45_examined` | propext, Quot.sound |
| `Verif.Condition.C45_read` | propext, Classical.choice, Quot.sound |
| `Verif.Condition.C45_rule` | propext, Quot.sound |
| `Verif.Contact.C207_contact_partial` | propext, Classical.choice, Quot.sound |
| `Verif.Contact.C207_symmetric` | propext, Classical.choice, Quot.sound |
| `Verif.Contact.C207_tilted_violated` | propext, Classical.choice, Quot.sound |
| `Verif.Contact.C208_crossing_partial` | propext, Classical.choice, Quot.sound |
| `Verif.Contact.C208_error` | propext, Classical.choice, Quot.sound |
| `Verif.Contact.C208_range_violated` | propext, Classical.choice, Quot.sound |
| `Verif.Contact.C209_between_violated` | propext, Classical.choice, Quot.sound |
| `Verif.Contact.C209_empty` | propext, Classical.choice, Quot.sound |
| `Verif.Contact.C209_level_partial` | propext, Classical.choice, Quot.sound |
| `Verif.Contact.C209_slope_violated` | propext, Classical.choice, Quot.sound |
| `Verif.Contact.C209_two_violated` | propext, Classical.choice, Quot.sound |
| `Verif.Contact.C209_whole` | propext, Classical.choice, Quot.sound |
| `Verif.Contact.C210_altitude_violated` | propext, Classical.choice, Quot.sound |
| `Verif.Contact.C210_error` | propext, Classical.choice, Quot.sound |
| `Verif.Contact.C210_found` | propext, Classical.choice, Quot.sound |
| `Verif.Contact.C210_order` | propext, Classical.choice, Quot.sound |
| `Verif.Contact.C210_seen_partial` | propext, Classical.choice, Quot.sound |
| `Verif.Contact.C210_side_violated` | propext, Classical.choice, Quot.sound |
| `Verif.Convert.C107_action` | none |
| `Verif.Convert.C107_gear_partial` | propext, Quot.sound |
| `Verif.Convert.C107_gear_violated` | none |
| `Verif.Convert.C107_parameters_partial` | none |
| `Verif.Convert.C107_pose` | none |
| `Verif.Convert.C107_status` | propext, Quot.sound |
| `Verif.Convert.C107_subtype_violated` | none |
| `Verif.Convert.C107_time` | none |
| `Verif.Convert.C107_trajectory` | none |
| `Verif.Convert.C107_unique` | propext |
| `Verif.Convert.C107_update` | propext, Quot.sound |
| `Verif.Convert.Lights.C108_direct` | propext, Quot.sound |
| `Verif.Convert.Lights.C108_element` | propext, Quot.sound |
| `Verif.Convert.Lights.C108_groups_partial` | propext, Quot.sound |
| `Verif.Convert.Lights.C108_id_violated` | propext, Quot.sound |
| `Verif.Convert.Lights.C108_once` | propext, Quot.sound |
| `Verif.Convert.Lights.C108_predictions_partial` | propext, Quot.sound |
| `Verif.Convert.Lights.C108_upper_violated` | propext, Quot.sound |
| `Verif.Convert.Lights.C108_ways_partial` | propext, Quot.sound |
| `Verif.Detection.C41_delay_queue` | propext, Classical.choice, Quot.sound |
| `Verif.Detection.C41_exact` | propext, Classical.choice, Quot.sound |
| `Verif.Detection.C41_rate` | propext, Classical.choice, Quot.sound |
| `Verif.Detection.C42_all_in_range` | propext, Classical.choice, Quot.sound |
| `Verif.Detection.C42_all_published_partial` | propext, Classical.choice, Quot.sound |
| `Verif.Detection.C42_first_frame_violated` | propext, Classical.choice, Quot.sound |
| `Verif.Detection.C42_known_published_partial` | propext, Classical.choice, Quot.sound |
| `Verif.Detection.C42_only_in_range` | propext, Classical.choice, Quot.sound |
| `Verif.Detection.C52_plane_partial` | propext, Classical.choice, Quot.sound |
| `Verif.Detection.C52_violated` | propext, Classical.choice, Quot.sound |
| `Verif.Detection.C53_range_partial` | propext, Classical.choice, Quot.sound |
| `Verif.Detection.C53_violated` | propext, Classical.choice, Quot.sound |
| `Verif.Detection.C53_zero_violated` | propext, Classical.choice, Quot.sound |
| `Verif.Detection.C68_detection_process_partial` | propext, Classical.choice, Quot.sound |
| `Verif.Detection.C68_ends` | propext, Classical.choice, Quot.sound |
| `Verif.Distance.C128_additive` | propext, Classical.choice, Quot.sound |
| `Verif.Distance.C128_antisymmetric` | propext, Classical.choice, Quot.sound |
| `Verif.Distance.C128_found_partial` | propext, Classical.choice, Quot.sound |
| `Verif.Distance.C128_lateral` | propext, Quot.sound |
| `Verif.Distance.C128_lateral_one_way_violated` | propext, Classical.choice, Quot.sound |
| `Verif.Distance.C128_lateral_route` | propext, Quot.sound |
| `Verif.Distance.C128_lateral_within` | propext, Classical.choice, Quot.sound |
| `Verif.Distance.C128_longitudinal` | propext, Classical.choice, Quot.sound |
| `Verif.Distance.C128_nearest` | propext, Classical.choice, Quot.sound |
| `Verif.Distance.C128_opposite_violated` | propext, Classical.choice, Quot.sound |
| `Verif.Distance.C128_relative` | propext, Classical.choice, Quot.sound |
| `Verif.Distance.C128_same_lanelet` | propext, Classical.choice, Quot.sound |
| `Verif.Distance.C128_two_names_violated` | propext, Classical.choice, Quot.sound |
| `Verif.Distance.C129_edges_violated` | propext, Classical.choice, Quot.sound |
| `Verif.Distance.C129_lateral_partial` | propext, Classical.choice, Quot.sound |
| `Verif.Distance.C129_longitudinal_partial` | propext, Classical.choice, Quot.sound |
| `Verif.Distance.C129_overlap_violated` | propext, Classical.choice, Quot.sound |
| `Verif.Distance.C129_relative_partial` | propext, Classical.choice, Quot.sound |
| `Verif.Distance.C130_absent` | propext, Classical.choice, Quot.sound |
| `Verif.Distance.C130_behind_violated` | propext, Classical.choice, Quot.sound |
| `Verif.Distance.C130_constructible` | propext, Classical.choice, Quot.sound |
| `Verif.Distance.C130_entities` | propext, Classical.choice, Quot.sound |
| `Verif.Distance.C130_euclidean` | propext, Classical.choice, Quot.sound |
| `Verif.Distance.C130_no_route` | propext, Classical.choice, Quot.sound |
| `Verif.Distance.C130_relative_partial` | propext, Classical.choice, Quot.sound |
| `Verif.Distance.C130_signed` | propext, Classical.choice, Quot.sound |
| `Verif.Distance.C130_supported` | propext, Classical.choice, Quot.sound |
| `Verif.Distance.C131_any_violated` | propext, Classical.choice, Quot.sound |
| `Verif.Distance.C131_everyone_partial` | propext, Classical.choice, Quot.sound |
| `Verif.Distance.C131_overlap_violated` | propext, Classical.choice, Quot.sound |
| `Verif.Distance.C131_references` | propext, Classical.choice, Quot.sound |
| `Verif.Distance.C132_ahead_violated` | propext, Classical.choice, Quot.sound |
| `Verif.Distance.C132_apart_violated` | propext, Classical.choice, Quot.sound |
| `Verif.Distance.C132_behind_partial` | propext, Classical.choice, Quot.sound |
| `Verif.Distance.C132_beside_partial` | propext, Classical.choice, Quot.sound |
| `Verif.Distance.C132_defined` | propext, Classical.choice, Quot.sound |
| `Verif.Distance.C132_euclidean_violated` | propext, Classical.choice, Quot.sound |
| `Verif.Distance.C132_position_partial` | propext, Classical.choice, Quot.sound |
| `Verif.Distance.C132_standing_violated` | propext, Classical.choice, Quot.sound |
| `Verif.Distance.C133_conflict` | propext, Classical.choice, Quot.sound |
| `Verif.Distance.C133_light_violated` | propext, Classical.choice, Quot.sound |
| `Verif.Distance.C133_lights_partial` | propext, Classical.choice, Quot.sound |
| `Verif.Distance.C133_no_yield_stop` | propext, Classical.choice, Quot.sound |
| `Verif.Distance.C133_right_of_way` | propext, Quot.sound |
| `Verif.Distance.C133_stop_line` | propext, Classical.choice, Quot.sound |
| `Verif.Distance.C133_yield_stop_partial` | propext, Classical.choice, Quot.sound |
| `Verif.Distance.C133_yield_violated` | propext, Classical.choice, Quot.sound |
| `Verif.Distance.C134_distance_partial` | propext, Classical.choice, Quot.sound |
| `Verif.Distance.C134_first_part` | propext, Quot.sound |
| `Verif.Distance.C134_front_partial` | propext, Classical.choice, Quot.sound |
| `Verif.Distance.C134_overlap_violated` | propext, Classical.choice, Quot.sound |
| `Verif.Distance.C134_threshold_violated` | propext, Classical.choice, Quot.sound |
| `Verif.Distance.C134_tie_violated` | propext, Classical.choice, Quot.sound |
| `Verif.Distance.C134_trajectory` | propext, Quot.sound |
| `Verif.Distance.C135_attained` | propext, Classical.choice, Quot.sound |
| `Verif.Distance.C135_corners` | propext, Classical.choice, Quot.sound |
| `Verif.Distance.C135_straight_partial` | propext, Classical.choice, Quot.sound |
| `Verif.Distance.C135_turn_violated` | propext, Classical.choice, Quot.sound |
| `Verif.Distribution.C197_element_partial` | propext, Quot.sound |
| `Verif.Distribution.C197_handed_violated` | propext, Quot.sound |
| `Verif.Distribution.C197_load_violated` | propext, Quot.sound |
| `Verif.Distribution.C197_one` | propext, Quot.sound |
| `Verif.Distribution.C197_rejected_violated` | propext, Quot.sound |
| `Verif.Distribution.C197_scenario` | propext, Quot.sound |
| `Verif.Distribution.C198_bins_violated` | propext, Classical.choice, Quot.sound |
| `Verif.Distribution.C198_histogram_violated` | propext, Classical.choice, Quot.sound |
| `Verif.Distribution.C198_logNormal_violated` | propext |
| `Verif.Distribution.C198_poisson_partial` | propext, Classical.choice, Quot.sound |
| `Verif.Distribution.C198_range_violated` | propext, Classical.choice, Quot.sound |
| `Verif.Distribution.C198_set` | propext, Classical.choice, Quot.sound |
| `Verif.Distribution.C198_uniform_violated` | propext, Classical.choice, Quot.sound |
| `Verif.Distribution.C198_user` | propext, Classical.choice, Quot.sound |
| `Verif.Distribution.C198_variance_violated` | propext, Classical.choice, Quot.sound |
| `Verif.Distribution.C199_others_violated` | propext, Quot.sound |
| `Verif.Distribution.C199_read_partial` | propext, Classical.choice, Quot.sound |
| `Verif.Distribution.C199_seed_partial` | propext, Classical.choice, Quot.sound |
| `Verif.Distribution.C199_seed_violated` | propext, Classical.choice, Quot.sound |
| `Verif.Distribution.C200_found_violated` | propext, Quot.sound |
| `Verif.Distribution.C200_read_partial` | propext, Classical.choice, Quot.sound |
| `Verif.Distribution.C200_step_violated` | propext |
| `Verif.Ego.C101_early_violated` | propext, Classical.choice, Quot.sound |
| `Verif.Ego.C101_lane` | propext, Classical.choice, Quot.sound |
| `Verif.Ego.C101_no_jump` | propext, Classical.choice, Quot.sound |
| `Verif.Ego.C101_orientation` | propext, Classical.choice, Quot.sound |
| `Verif.Ego.C101_place` | propext, Classical.choice, Quot.sound |
| `Verif.Ego.C101_tilted` | propext, Classical.choice, Quot.sound |
| `Verif.Ego.C101_tilted_violated` | propext, Classical.choice, Quot.sound |
| `Verif.Ego.C102_acceleration_partial` | propext, Classical.choice, Quot.sound |
| `Verif.Ego.C102_heading` | propext, Classical.choice, Quot.sound |
| `Verif.Ego.C102_junk_violated` | propext, Classical.choice, Quot.sound |
| `Verif.Ego.C102_place` | propext, Classical.choice, Quot.sound |
| `Verif.Ego.C102_speed_partial` | propext, Classical.choice, Quot.sound |
| `Verif.Ego.C102_speed_violated` | propext, Classical.choice, Quot.sound |
| `Verif.Ego.C102_tilt_violated` | propext, Classical.choice, Quot.sound |
| `Verif.Ego.C102_turn_partial` | propext, Classical.choice, Quot.sound |
| `Verif.Ego.C102_turn_violated` | propext, Classical.choice, Quot.sound |
| `Verif.Ego.C103_defined` | propext, Classical.choice, Quot.sound |
| `Verif.Ego.C103_gear` | propext, Classical.choice, Quot.sound |
| `Verif.Ego.C103_gravity` | propext, Classical.choice, Quot.sound |
| `Verif.Ego.C103_ideal` | propext, Classical.choice, Quot.sound |
| `Verif.Ego.C103_step` | propext, Classical.choice, Quot.sound |
| `Verif.Ego.C103_unused` | propext, Classical.choice, Quot.sound |
| `Verif.Ego.C104_differences` | propext, Classical.choice, Quot.sound |
| `Verif.Ego.C104_jerk_violated` | propext, Classical.choice, Quot.sound |
| `Verif.Ego.C104_time` | propext, Classical.choice, Quot.sound |
| `Verif.Ego.C104_told` | propext, Classical.choice, Quot.sound |
| `Verif.Entity.C28_at_once_partial` | propext, Quot.sound |
| `Verif.Entity.C28_frames_partial` | propext, Classical.choice, Quot.sound |
| `Verif.Entity.C28_ignored_violated` | none |
| `Verif.Entity.C28_relative_partial` | propext, Classical.choice, Quot.sound |
| `Verif.Entity.C28_violated` | none |
| `Verif.Entity.C29_monotone` | propext, Classical.choice, Quot.sound |
| `Verif.Entity.C29_partial` | propext, Classical.choice, Quot.sound |
| `Verif.Entity.C29_violated` | propext, Classical.choice, Quot.sound |
| `Verif.Enum.C187_empty` | propext, Classical.choice, Quot.sound |
| `Verif.Enum.C187_empty_violated` | propext, Classical.choice, Quot.sound |
| `Verif.Enum.C187_literal_partial` | propext, Classical.choice, Quot.sound |
| `Verif.Enum.C187_parameter` | propext, Classical.choice, Quot.sound |
| `Verif.Enum.C187_refused_violated` | propext, Classical.choice, Quot.sound |
| `Verif.Enum.C187_unsupported` | propext, Classical.choice, Quot.sound |
| `Verif.Enum.C188_apart` | propext, Classical.choice, Quot.sound |
| `Verif.Enum.C188_round_trip` | propext, Classical.choice, Quot.sound |
| `Verif.Expr.C24_conversions` | none |
| `Verif.Expr.C24_doubles` | propext, Quot.sound |
| `Verif.Expr.C24_error_propagates` | propext |
| `Verif.Expr.C24_functions` | propext |
| `Verif.Expr.C24_grammar` | propext, Classical.choice, Quot.sound |
| `Verif.Expr.C24_integers` | propext |
| `Verif.Expr.C24_logic` | propext |
| `Verif.Expr.C24_minus` | none |
| `Verif.Expr.C24_only_expressions` | propext, Classical.choice, Quot.sound |
| `Verif.Expr.C24_precedence` | propext, Classical.choice, Quot.sound |
| `Verif.Expr.C24_promotions` | propext |
| `Verif.Expr.C24_returns` | propext, Classical.choice, Quot.sound |
| `Verif.Expr.C24_sqrt_not_real` | propext, Classical.choice, Quot.sound |
| `Verif.Expr.C24_typing_partial` | propext |
| `Verif.Expr.C24_unsigned_wraps_violated` | propext, Classical.choice, Quot.sound |
| `Verif.Expr.C24_violated` | propext, Classical.choice, Quot.sound |
| `Verif.Follow.C109_partial` | propext, Classical.choice, Quot.sound |
| `Verif.Follow.C109_violated` | propext, Classical.choice, Quot.sound |
| `Verif.Follow.C110_deceleration_violated` | propext, Classical.choice, Quot.sound |
| `Verif.Follow.C110_max_speed_violated` | propext, Classical.choice, Quot.sound |
| `Verif.Follow.C110_partial` | propext, Classical.choice, Quot.sound |
| `Verif.Follow.C110_target_violated` | propext, Classical.choice, Quot.sound |
| `Verif.Follow.C111_partial` | propext, Classical.choice, Quot.sound |
| `Verif.Follow.C111_rates_violated` | propext, Classical.choice, Quot.sound |
| `Verif.Follow.C111_slow_down_violated` | propext, Classical.choice, Quot.sound |
| `Verif.Follow.C112_just_late` | propext, Classical.choice, Quot.sound |
| `Verif.Follow.C112_last` | propext, Classical.choice, Quot.sound |
| `Verif.Follow.C112_last_braking` | propext, Classical.choice, Quot.sound |
| `Verif.Follow.C112_last_error` | propext, Classical.choice, Quot.sound |
| `Verif.Follow.C112_last_passing` | propext, Classical.choice, Quot.sound |
| `Verif.Follow.C112_last_stop` | propext, Classical.choice, Quot.sound |
| `Verif.Follow.C112_late_violated` | propext, Classical.choice, Quot.sound |
| `Verif.Follow.C112_standstill` | propext, Classical.choice, Quot.sound |
| `Verif.Follow.C112_stop` | propext, Classical.choice, Quot.sound |
| `Verif.Follow.C112_time` | propext, Classical.choice, Quot.sound |
| `Verif.Follow.C112_whole_steps` | propext, Classical.choice, Quot.sound |
| `Verif.Follow.C113_brake` | propext, Classical.choice, Quot.sound |
| `Verif.Follow.C113_closed_violated` | propext, Classical.choice, Quot.sound |
| `Verif.Follow.C113_direction` | propext, Classical.choice, Quot.sound |
| `Verif.Follow.C113_done` | propext, Classical.choice, Quot.sound |
| `Verif.Follow.C113_done_now` | propext, Classical.choice, Quot.sound |
| `Verif.Follow.C113_history` | propext, Classical.choice, Quot.sound |
| `Verif.Follow.C113_missed` | propext, Classical.choice, Quot.sound |
| `Verif.Follow.C113_move` | propext, Classical.choice, Quot.sound |
| `Verif.Follow.C113_order` | propext, Classical.choice, Quot.sound |
| `Verif.Follow.C113_pair_violated` | propext, Classical.choice, Quot.sound |
| `Verif.Follow.C113_returns` | propext, Classical.choice, Quot.sound |
| `Verif.Follow.C113_short_violated` | propext, Classical.choice, Quot.sound |
| `Verif.Follow.C113_wait` | propext, Classical.choice, Quot.sound |
| `Verif.Follow.Idle.C114_absolute_violated` | propext, Classical.choice, Quot.sound |
| `Verif.Follow.Idle.C114_acceleration_violated` | propext, Classical.choice, Quot.sound |
| `Verif.Follow.Idle.C114_before` | propext, Classical.choice, Quot.sound |
| `Verif.Follow.Idle.C114_done` | propext, Classical.choice, Quot.sound |
| `Verif.Follow.Idle.C114_end` | propext, Classical.choice, Quot.sound |
| `Verif.Follow.Idle.C114_idle` | propext, Classical.choice, Quot.sound |
| `Verif.Follow.Idle.C114_jump_violated` | propext, Classical.choice, Quot.sound |
| `Verif.Follow.Idle.C114_place` | propext, Classical.choice, Quot.sound |
| `Verif.Follow.Idle.C114_refused` | propext, Classical.choice, Quot.sound |
| `Verif.Follow.Idle.C114_single_violated` | propext, Classical.choice, Quot.sound |
| `Verif.Geometry.angleDifference_yaw` | propext, Classical.choice, Quot.sound |
| `Verif.Geometry.bounds_defined` | propext, Classical.choice, Quot.sound |
| `Verif.Geometry.boxRelative_direction_violated` | propext, Classical.choice, Quot.sound |
| `Verif.Geometry.boxRelative_distance_partial` | propext, Classical.choice, Quot.sound |
| `Verif.Geometry.closestOnPolygon_closest` | propext, Classical.choice, Quot.sound |
| `Verif.Geometry.closest_minimal` | propext, Classical.choice, Quot.sound |
| `Verif.Geometry.collisionsPolygon_partial` | propext, Classical.choice, Quot.sound |
| `Verif.Geometry.collisions_defined` | propext, Classical.choice, Quot.sound |
| `Verif.Geometry.collisions_overlap_violated` | propext, Classical.choice, Quot.sound |
| `Verif.Geometry.collisions_partial` | propext, Classical.choice, Quot.sound |
| `Verif.Geometry.collisions_range_violated` | propext, Classical.choice, Quot.sound |
| `Verif.Geometry.cubicGap_discriminant` | propext, Classical.choice, Quot.sound |
| `Verif.Geometry.directionToQuat_forward` | propext, Classical.choice, Quot.sound |
| `Verif.Geometry.eulerToQuat_spec` | propext, Classical.choice, Quot.sound |
| `Verif.Geometry.getIntersection_partial` | propext, Classical.choice, Quot.sound |
| `Verif.Geometry.getIntersection_touching_violated` | propext, Classical.choice, Quot.sound |
| `Verif.Geometry.getLineSegments_mem` | propext, Classical.choice, Quot.sound |
| `Verif.Geometry.global_then_relative` | propext, Classical.choice, Quot.sound |
| `Verif.Geometry.hermite_ends` | propext, Classical.choice, Quot.sound |
| `Verif.Geometry.hermite_only` | propext, Classical.choice, Quot.sound |
| `Verif.Geometry.index_back` | propext, Classical.choice, Quot.sound |
| `Verif.Geometry.isIntersectAny_iff_partial` | propext, Classical.choice, Quot.sound |
| `Verif.Geometry.isIntersect_iff_partial` | propext, Classical.choice, Quot.sound |
| `Verif.Geometry.isIntersect_tiny_violated` | propext, Classical.choice, Quot.sound |
| `Verif.Geometry.leftBounds_side` | propext, Classical.choice, Quot.sound |
| `Verif.Geometry.make_points` | propext, Classical.choice, Quot.sound |
| `Verif.Geometry.normal_left` | propext, Classical.choice, Quot.sound |
| `Verif.Geometry.normalize_spec` | propext, Classical.choice, Quot.sound |
| `Verif.Geometry.ofVector_spec` | propext, Classical.choice, Quot.sound |
| `Verif.Geometry.outline_corners` | propext, Classical.choice, Quot.sound |
| `Verif.Geometry.pointOffset_left` | propext, Classical.choice, Quot.sound |
| `Verif.Geometry.point_at_s` | propext, Classical.choice, Quot.sound |
| `Verif.Geometry.project_closest` | propext, Classical.choice, Quot.sound |
| `Verif.Geometry.project_onSegment` | propext, Classical.choice, Quot.sound |
| `Verif.Geometry.relativePosition_left_violated` | propext, Classical.choice, Quot.sound |
| `Verif.Geometry.relativePosition_side` | propext, Classical.choice, Quot.sound |
| `Verif.Geometry.relative_position` | propext, Classical.choice, Quot.sound |
| `Verif.Geometry.relative_then_global` | propext, Classical.choice, Quot.sound |
| `Verif.Geometry.rightBounds_side` | propext, Classical.choice, Quot.sound |
| `Verif.Geometry.rightBounds_violated` | propext, Classical.choice, Quot.sound |
| `Verif.Geometry.sAt_back` | propext, Classical.choice, Quot.sound |
| `Verif.Geometry.s_of_crossing` | propext, Classical.choice, Quot.sound |
| `Verif.Geometry.s_of_point` | propext, Classical.choice, Quot.sound |
| `Verif.Geometry.s_of_pose` | propext, Classical.choice, Quot.sound |
| `Verif.Geometry.s_refused` | propext, Classical.choice, Quot.sound |
| `Verif.Geometry.samples_refused` | propext, Classical.choice, Quot.sound |
| `Verif.Geometry.samples_spaced` | propext, Classical.choice, Quot.sound |
| `Verif.Geometry.slerp_long_way_violated` | propext, Classical.choice, Quot.sound |
| `Verif.Geometry.slerp_one` | propext, Classical.choice, Quot.sound |
| `Verif.Geometry.slerp_unit` | propext, Classical.choice, Quot.sound |
| `Verif.Geometry.slerp_yaw` | propext, Classical.choice, Quot.sound |
| `Verif.Geometry.slerp_zero` | propext, Classical.choice, Quot.sound |
| `Verif.Geometry.slope_leftward_violated` | propext, Classical.choice, Quot.sound |
| `Verif.Geometry.slope_partial` | propext, Classical.choice, Quot.sound |
| `Verif.Geometry.solveCubic_lost_violated` | propext, Classical.choice, Quot.sound |
| `Verif.Geometry.solveCubic_moved_violated` | propext, Classical.choice, Quot.sound |
| `Verif.Geometry.solveCubic_partial` | propext, Classical.choice, Quot.sound |
| `Verif.Geometry.solveCubic_triple_violated` | propext, Classical.choice, Quot.sound |
| `Verif.Geometry.solveLinear_exact` | propext, Classical.choice, Quot.sound |
| `Verif.Geometry.solveQuadratic_partial` | propext, Classical.choice, Quot.sound |
| `Verif.Geometry.solveQuadratic_small_violated` | propext, Classical.choice, Quot.sound |
| `Verif.Geometry.solveQuadratic_touching_violated` | propext, Classical.choice, Quot.sound |
| `Verif.Geometry.spline_collision_partial` | propext, Classical.choice, Quot.sound |
| `Verif.Geometry.spline_collisions_partial` | propext, Classical.choice, Quot.sound |
| `Verif.Geometry.spline_continuous` | propext, Classical.choice, Quot.sound |
| `Verif.Geometry.spline_place_partial` | propext, Classical.choice, Quot.sound |
| `Verif.Geometry.spline_points` | propext, Classical.choice, Quot.sound |
| `Verif.Geometry.spline_segment_partial` | propext, Classical.choice, Quot.sound |
| `Verif.Geometry.tangent_derivative` | propext, Classical.choice, Quot.sound |
| `Verif.Geometry.trajectory_spaced` | propext, Classical.choice, Quot.sound |
| `Verif.Geometry.transformPointSensor_difference` | propext, Classical.choice, Quot.sound |
| `Verif.Geometry.transformPointSensor_partial` | propext, Classical.choice, Quot.sound |
| `Verif.Geometry.transformPointSensor_turned_violated` | propext, Classical.choice, Quot.sound |
| `Verif.Geometry.transformPoint_compose` | propext, Classical.choice, Quot.sound |
| `Verif.Geometry.transformPoint_nonunit_violated` | propext, Classical.choice, Quot.sound |
| `Verif.Geometry.transformPoint_rigid` | propext, Classical.choice, Quot.sound |
| `Verif.Geometry.transformPoint_yaw` | propext, Classical.choice, Quot.sound |
| `Verif.Geometry.truncate_spec` | propext, Classical.choice, Quot.sound |
| `Verif.Geometry.two_points` | propext, Classical.choice, Quot.sound |
| `Verif.Geometry.two_points_polygon_violated` | propext, Classical.choice, Quot.sound |
| `Verif.Geometry.two_points_segment_violated` | propext, Classical.choice, Quot.sound |
| `Verif.Grid.C117_border_violated` | propext, Classical.choice, Quot.sound |
| `Verif.Grid.C117_cells` | propext, Classical.choice, Quot.sound |
| `Verif.Grid.C117_ends` | propext, Classical.choice, Quot.sound |
| `Verif.Grid.C117_touched` | propext, Classical.choice, Quot.sound |
| `Verif.Grid.C118_between` | propext, Classical.choice, Quot.sound |
| `Verif.Grid.C118_border_violated` | propext, Classical.choice, Quot.sound |
| `Verif.Grid.C118_inside` | propext, Classical.choice, Quot.sound |
| `Verif.Grid.C118_many` | propext, Classical.choice, Quot.sound |
| `Verif.Grid.C118_outline` | propext, Classical.choice, Quot.sound |
| `Verif.Grid.C118_seen` | propext, Classical.choice, Quot.sound |
| `Verif.Grid.C118_small_violated` | propext, Classical.choice, Quot.sound |
| `Verif.Grid.C118_values` | propext, Classical.choice, Quot.sound |
| `Verif.Grid.C119_many` | propext, Classical.choice, Quot.sound |
| `Verif.Grid.C119_message` | propext, Classical.choice, Quot.sound |
| `Verif.Grid.C119_place_partial` | propext, Classical.choice, Quot.sound |
| `Verif.Grid.C119_place_violated` | propext, Classical.choice, Quot.sound |
| `Verif.Grid.C119_turned_violated` | propext, Classical.choice, Quot.sound |
| `Verif.Grid.C119_vertices` | propext, Classical.choice, Quot.sound |
| `Verif.Grid.C120_ends` | propext, Classical.choice, Quot.sound |
| `Verif.Grid.C120_hidden` | propext, Classical.choice, Quot.sound |
| `Verif.Grid.C120_only` | propext, Classical.choice, Quot.sound |
| `Verif.Grid.C120_surrounded_violated` | propext, Classical.choice, Quot.sound |
| `Verif.Init.C159_complete_partial` | propext, Classical.choice, Quot.sound |
| `Verif.Init.C159_each_frame_partial` | propext, Classical.choice, Quot.sound |
| `Verif.Init.C159_environment_violated` | propext, Classical.choice, Quot.sound |
| `Verif.Init.C159_ignored_violated` | propext, Quot.sound |
| `Verif.Init.C159_once_partial` | propext, Classical.choice, Quot.sound |
| `Verif.Init.C159_order_partial` | propext, Classical.choice, Quot.sound |
| `Verif.Init.C159_order_violated` | none |
| `Verif.Interpreter.C43_at_most_one` | propext, Quot.sound |
| `Verif.Interpreter.C43_classification` | propext, Quot.sound |
| `Verif.Interpreter.C43_defined` | propext, Quot.sound |
| `Verif.Interpreter.C43_one_verdict_partial` | propext, Quot.sound |
| `Verif.Interpreter.C43_timeout_violated` | propext, Quot.sound |
| `Verif.Interpreter.C55_checker_partial` | propext, Quot.sound |
| `Verif.Interpreter.C55_invalid_violated` | propext |
| `Verif.Interpreter.C55_nothing_recorded` | propext, Quot.sound |
| `Verif.Interpreter.C55_stale_violated` | propext |
| `Verif.Interpreter.C55_timeout_violated` | propext |
| `Verif.Job.C27_append` | propext, Classical.choice, Quot.sound |
| `Verif.Job.C27_append_effects` | propext, Quot.sound |
| `Verif.Job.C27_at_most_one` | propext, Classical.choice, Quot.sound |
| `Verif.Job.C27_calls` | propext, Classical.choice, Quot.sound |
| `Verif.Job.C27_duration` | propext, Quot.sound |
| `Verif.Job.C27_update` | propext, Classical.choice, Quot.sound |
| `Verif.Job.C27_update_effects` | propext, Quot.sound |
| `Verif.Lamps.C239_condition` | propext, Classical.choice, Quot.sound |
| `Verif.Lamps.C239_list_violated` | propext, Classical.choice, Quot.sound |
| `Verif.Lamps.C239_none_violated` | propext, Classical.choice, Quot.sound |
| `Verif.Lamps.C239_refused` | propext, Classical.choice, Quot.sound |
| `Verif.Lamps.C239_set_partial` | propext, Classical.choice, Quot.sound |
| `Verif.Lamps.C239_stop` | propext, Classical.choice, Quot.sound |
| `Verif.Lamps.C239_words` | propext, Classical.choice, Quot.sound |
| `Verif.Lamps.C240_bulbs` | propext, Classical.choice, Quot.sound |
| `Verif.Lamps.C240_confidence` | propext, Classical.choice, Quot.sound |
| `Verif.Lamps.C240_look_partial` | propext, Classical.choice, Quot.sound |
| `Verif.Lamps.C240_look_violated` | propext, Classical.choice, Quot.sound |
| `Verif.Lamps.C240_message` | propext, Classical.choice, Quot.sound |
| `Verif.Lamps.C241_ids_violated` | propext, Classical.choice, Quot.sound |
| `Verif.Lamps.C241_kinds_violated` | propext, Classical.choice, Quot.sound |
| `Verif.Lamps.C241_known` | propext, Classical.choice, Quot.sound |
| `Verif.Lamps.C241_shown_partial` | propext, Classical.choice, Quot.sound |
| `Verif.Lamps.C242_bad` | propext, Quot.sound |
| `Verif.Lamps.C242_publish` | propext, Quot.sound |
| `Verif.Lamps.C242_rate` | propext, Classical.choice, Quot.sound |
| `Verif.Lanelet.C60_canonical` | propext, Classical.choice, Quot.sound |
| `Verif.Lanelet.C60_idempotent` | propext, Classical.choice, Quot.sound |
| `Verif.Lanelet.C60_route_partial` | propext, Classical.choice, Quot.sound |
| `Verif.Lanelet.C60_route_violated` | propext, Classical.choice, Quot.sound |
| `Verif.Lanelet.C60_terminates` | propext, Classical.choice, Quot.sound |
| `Verif.Lanelet.C61_along` | propext, Classical.choice, Quot.sound |
| `Verif.Lanelet.C61_route_partial` | propext, Classical.choice, Quot.sound |
| `Verif.Lanelet.C61_terminates` | propext, Classical.choice, Quot.sound |
| `Verif.Lanelet.C62_following` | propext, Classical.choice, Quot.sound |
| `Verif.Lanelet.C62_previous` | propext, Classical.choice, Quot.sound |
| `Verif.Lanelet.C62_route` | propext, Classical.choice, Quot.sound |
| `Verif.Lanelet.C62_route_error` | propext, Classical.choice, Quot.sound |
| `Verif.Lanelet.C62_terminates` | propext, Classical.choice, Quot.sound |
| `Verif.Lanelet.C63_alternatives_partial` | propext, Classical.choice, Quot.sound |
| `Verif.Lanelet.C63_complete` | propext, Classical.choice, Quot.sound |
| `Verif.Lanelet.C63_terminates` | propext, Classical.choice, Quot.sound |
| `Verif.Lanelet.C63_violated` | propext, Classical.choice, Quot.sound |
| `Verif.Lanes.C152_centerline_partial` | propext, Classical.choice, Quot.sound |
| `Verif.Lanes.C152_count` | propext, Classical.choice, Quot.sound |
| `Verif.Lanes.C152_custom` | propext, Classical.choice, Quot.sound |
| `Verif.Lanes.C152_point_violated` | propext, Classical.choice, Quot.sound |
| `Verif.Lanes.C152_repeated_violated` | propext, Classical.choice, Quot.sound |
| `Verif.Lanes.C152_resampled` | propext, Classical.choice, Quot.sound |
| `Verif.Lanes.C152_shape_partial` | propext, Classical.choice, Quot.sound |
| `Verif.Lanes.C152_third` | propext, Classical.choice, Quot.sound |
| `Verif.Lanes.C153_count` | propext, Quot.sound |
| `Verif.Lanes.C153_count_none` | propext, Quot.sound |
| `Verif.Lanes.C153_direction_partial` | propext |
| `Verif.Lanes.C153_direction_violated` | propext |
| `Verif.Lanes.C153_ego` | propext |
| `Verif.Lanes.C153_pedestrian_violated` | propext, Quot.sound |
| `Verif.Lanes.C153_refused` | propext, Classical.choice, Quot.sound |
| `Verif.Lanes.C153_relative_partial` | propext, Quot.sound |
| `Verif.Lanes.C153_unknown` | propext |
| `Verif.Lanes.C153_wrapped_violated` | propext |
| `Verif.Lanes.C154_bound` | propext, Quot.sound |
| `Verif.Lanes.C154_bound_error` | propext, Quot.sound |
| `Verif.Lanes.C154_none` | propext, Quot.sound |
| `Verif.Lanes.C154_offset_violated` | propext, Classical.choice, Quot.sound |
| `Verif.Lanes.C154_place` | propext, Classical.choice, Quot.sound |
| `Verif.Lanes.C155_length` | propext, Classical.choice, Quot.sound |
| `Verif.Lanes.C155_nearby_partial` | propext, Classical.choice, Quot.sound |
| `Verif.Lanes.C155_nearby_sound` | propext, Classical.choice, Quot.sound |
| `Verif.Lanes.C155_nearby_violated` | propext |
| `Verif.Lanes.C155_order` | propext, Classical.choice, Quot.sound |
| `Verif.Lanes.C155_points` | propext, Classical.choice, Quot.sound |
| `Verif.Lanes.C155_speed` | propext, Classical.choice, Quot.sound |
| `Verif.Lanes.C155_speed_none` | propext, Quot.sound |
| `Verif.Lanes.C155_subtype_violated` | propext |
| `Verif.Lanes.C155_union` | propext, Quot.sound |
| `Verif.Lanes.C155_yaw_none` | propext |
| `Verif.Lanes.C155_yaw_partial` | propext, Classical.choice, Quot.sound |
| `Verif.Lanes.C155_yaw_violated` | propext, Classical.choice, Quot.sound |
| `Verif.Lanes.C156_bulb` | propext, Classical.choice, Quot.sound |
| `Verif.Lanes.C156_bulb_found` | propext, Classical.choice, Quot.sound |
| `Verif.Lanes.C156_bulb_none` | propext, Quot.sound |
| `Verif.Lanes.C156_guess` | propext, Classical.choice, Quot.sound |
| `Verif.Lanes.C156_listed` | propext, Classical.choice, Quot.sound |
| `Verif.Lanes.C156_stop_line_points` | propext, Quot.sound |
| `Verif.Lanes.C156_stop_lines` | propext, Classical.choice, Quot.sound |
| `Verif.Lanes.C156_together_violated` | propext, Quot.sound |
| `Verif.Light.C19_emplace` | propext, Quot.sound |
| `Verif.Light.C19_identity` | propext, Quot.sound |
| `Verif.Light.C20_bulb` | propext, Classical.choice, Quot.sound |
| `Verif.Light.C20_light` | propext, Classical.choice, Quot.sound |
| `Verif.Light.C20_names` | propext, Classical.choice, Quot.sound |
| `Verif.Light.C21_add_clear` | propext, Classical.choice, Quot.sound |
| `Verif.Light.C21_detected` | propext, Classical.choice, Quot.sound |
| `Verif.Light.C21_rejects` | propext, Classical.choice, Quot.sound |
| `Verif.Light.C21_replaces_partial` | propext, Classical.choice, Quot.sound |
| `Verif.Light.C21_v2i` | propext, Classical.choice, Quot.sound |
| `Verif.Light.C21_violated` | propext, Classical.choice, Quot.sound |
| `Verif.Light.C22_add_partial` | propext, Classical.choice, Quot.sound |
| `Verif.Light.C22_feature` | propext, Quot.sound |
| `Verif.Light.C22_history_partial` | propext, Classical.choice, Quot.sound |
| `Verif.Light.C22_only_enabled` | propext, Classical.choice, Quot.sound |
| `Verif.Light.C22_set_clear_partial` | propext, Classical.choice, Quot.sound |
| `Verif.Light.C22_violated` | propext, Classical.choice, Quot.sound |
| `Verif.Literal.C201_integer` | propext, Classical.choice, Quot.sound |
| `Verif.Literal.C201_negative_violated` | propext, Classical.choice, Quot.sound |
| `Verif.Literal.C201_round_trip` | propext, Classical.choice, Quot.sound |
| `Verif.Literal.C201_unsigned_partial` | propext, Classical.choice, Quot.sound |
| `Verif.Literal.C202_attribute` | propext, Classical.choice, Quot.sound |
| `Verif.Literal.C202_figures_violated` | propext, Classical.choice, Quot.sound |
| `Verif.Literal.C202_infinity` | propext, Classical.choice, Quot.sound |
| `Verif.Literal.C202_rest_violated` | propext, Classical.choice, Quot.sound |
| `Verif.Literal.C203_all` | propext, Classical.choice, Quot.sound |
| `Verif.Literal.C203_date_violated` | propext |
| `Verif.Literal.C203_declared` | propext, Classical.choice, Quot.sound |
| `Verif.Literal.C203_names_violated` | propext, Classical.choice, Quot.sound |
| `Verif.Literal.C203_value_partial` | propext, Classical.choice, Quot.sound |
| `Verif.Maps.C211_bare_violated` | propext, Classical.choice, Quot.sound |
| `Verif.Maps.C211_directory_partial` | propext, Classical.choice, Quot.sound |
| `Verif.Maps.C211_first_violated` | propext, Classical.choice, Quot.sound |
| `Verif.Maps.C211_named_partial` | propext, Classical.choice, Quot.sound |
| `Verif.Maps.C211_order` | propext, Classical.choice, Quot.sound |
| `Verif.Maps.C211_refusal` | propext, Classical.choice, Quot.sound |
| `Verif.Maps.C211_whole` | propext, Classical.choice, Quot.sound |
| `Verif.Markers.C234_shown` | propext, Classical.choice, Quot.sound |
| `Verif.Markers.C235_gone_partial` | propext, Classical.choice, Quot.sound |
| `Verif.Markers.C235_gone_violated` | propext, Quot.sound |
| `Verif.Markers.C235_later_partial` | propext, Classical.choice, Quot.sound |
| `Verif.Markers.C236_fresh` | propext, Classical.choice, Quot.sound |
| `Verif.Markers.C236_goals_partial` | propext, Classical.choice, Quot.sound |
| `Verif.Markers.C236_next_goal_violated` | propext, Quot.sound |
| `Verif.Markers.C237_boxes` | propext, Classical.choice, Quot.sound |
| `Verif.Markers.C237_paths` | propext, Classical.choice, Quot.sound |
| `Verif.Markers.C238_edges` | propext, Quot.sound |
| `Verif.Markers.C238_once` | propext, Quot.sound |
| `Verif.Matching.C217_angles` | propext, Classical.choice, Quot.sound |
| `Verif.Matching.C218_beside_partial` | propext, Classical.choice, Quot.sound |
| `Verif.Matching.C218_no_place` | propext, Classical.choice, Quot.sound |
| `Verif.Matching.C218_place` | propext, Classical.choice, Quot.sound |
| `Verif.Matching.C219_back` | propext, Classical.choice, Quot.sound |
| `Verif.Matching.C219_pitch_violated` | propext, Classical.choice, Quot.sound |
| `Verif.Matching.C219_skew_violated` | propext, Classical.choice, Quot.sound |
| `Verif.Matching.C220_all` | propext, Classical.choice, Quot.sound |
| `Verif.Matching.C220_closest` | propext, Classical.choice, Quot.sound |
| `Verif.Matching.C220_order` | propext, Classical.choice, Quot.sound |
| `Verif.Matching.C220_outline_partial` | propext, Classical.choice, Quot.sound |
| `Verif.Matching.C220_outline_violated` | propext, Classical.choice, Quot.sound |
| `Verif.Matching.C221_all` | propext, Classical.choice, Quot.sound |
| `Verif.Matching.C221_alternative` | propext, Classical.choice, Quot.sound |
| `Verif.Matching.C221_pedestrian` | propext, Classical.choice, Quot.sound |
| `Verif.Matching.C221_route` | propext, Classical.choice, Quot.sound |
| `Verif.Matching.C222_align` | propext, Classical.choice, Quot.sound |
| `Verif.Matching.C222_canonical` | propext, Classical.choice, Quot.sound |
| `Verif.Matching.C222_reverse_violated` | propext, Classical.choice, Quot.sound |
| `Verif.Matching.C222_slope_partial` | propext, Classical.choice, Quot.sound |
| `Verif.Modify.C175_bounded` | propext, Classical.choice, Quot.sound |
| `Verif.Modify.C175_complete` | propext, Classical.choice, Quot.sound |
| `Verif.Modify.C175_exact_partial` | propext, Classical.choice, Quot.sound |
| `Verif.Modify.C175_past_violated` | propext, Classical.choice, Quot.sound |
| `Verif.Modify.C175_steps` | propext, Classical.choice, Quot.sound |
| `Verif.Modify.C175_zero` | propext, Classical.choice, Quot.sound |
| `Verif.Modify.C176_files` | propext, Classical.choice, Quot.sound |
| `Verif.Modify.C176_none_violated` | propext, Classical.choice, Quot.sound |
| `Verif.Modify.C176_plain` | propext, Classical.choice, Quot.sound |
| `Verif.Modify.C177_again_violated` | propext, Classical.choice, Quot.sound |
| `Verif.Modify.C177_unchanged` | propext, Classical.choice, Quot.sound |
| `Verif.Modify.C177_within_violated` | propext, Classical.choice, Quot.sound |
| `Verif.Modify.C177_words_partial` | propext, Classical.choice, Quot.sound |
| `Verif.Modify.C178_exits` | propext, Classical.choice, Quot.sound |
| `Verif.Modify.C178_silent_violated` | propext, Classical.choice, Quot.sound |
| `Verif.Modify.C178_valid` | propext, Classical.choice, Quot.sound |
| `Verif.Modify.C179_booleans` | propext, Classical.choice, Quot.sound |
| `Verif.Modify.C179_entries` | propext, Quot.sound |
| `Verif.Modify.C179_items` | propext |
| `Verif.Modify.C179_number_violated` | propext |
| `Verif.Modify.C179_text` | propext |
| `Verif.Modify.C179_total` | propext, Quot.sound |
| `Verif.Monitor.C157_clock` | propext, Quot.sound |
| `Verif.Monitor.C157_clock_violated` | propext, Quot.sound |
| `Verif.Monitor.C157_ended_violated` | propext, Quot.sound |
| `Verif.Monitor.C157_entries` | propext, Quot.sound |
| `Verif.Monitor.C157_good_partial` | propext, Quot.sound |
| `Verif.Monitor.C157_overridden` | propext, Quot.sound |
| `Verif.Monitor.C157_restored_partial` | propext, Quot.sound |
| `Verif.Monitor.C157_restored_violated` | propext, Quot.sound |
| `Verif.Monitor.C158_deadlock_violated` | propext, Quot.sound |
| `Verif.Monitor.C158_ends_partial` | propext, Quot.sound |
| `Verif.Monitor.C158_order` | propext, Quot.sound |
| `Verif.Monitor.C158_stuck` | propext, Quot.sound |
| `Verif.Noise.C212_silent` | propext, Classical.choice, Quot.sound |
| `Verif.Noise.C212_velocity` | propext, Classical.choice, Quot.sound |
| `Verif.Noise.C213_odometry_partial` | propext, Classical.choice, Quot.sound |
| `Verif.Noise.C213_position` | propext, Classical.choice, Quot.sound |
| `Verif.Noise.C213_roll` | propext, Classical.choice, Quot.sound |
| `Verif.Noise.C213_roll_violated` | propext, Classical.choice, Quot.sound |
| `Verif.Noise.C213_silent` | propext, Classical.choice, Quot.sound |
| `Verif.Noise.C213_yaw` | propext, Classical.choice, Quot.sound |
| `Verif.Noise.C214_multiplicative_violated` | propext, Classical.choice, Quot.sound |
| `Verif.Noise.C214_pose_partial` | propext, Classical.choice, Quot.sound |
| `Verif.Noise.C215_range_violated` | propext, Classical.choice, Quot.sound |
| `Verif.Noise.C215_seed_partial` | propext, Classical.choice, Quot.sound |
| `Verif.Noise.C216_entity` | propext, Classical.choice, Quot.sound |
| `Verif.Noise.C216_gravity_violated` | propext, Classical.choice, Quot.sound |
| `Verif.Noise.C216_heading_violated` | propext, Classical.choice, Quot.sound |
| `Verif.Noise.C216_legacy_partial` | propext, Classical.choice, Quot.sound |
| `Verif.Noise.C216_override_partial` | propext, Classical.choice, Quot.sound |
| `Verif.Operator.C146_initialized_once` | propext, Quot.sound |
| `Verif.Operator.C146_lane_points` | propext |
| `Verif.Operator.C146_lanelets_partial` | propext, Quot.sound |
| `Verif.Operator.C146_loop_violated` | none |
| `Verif.Operator.C146_off_lane_undefined_violated` | none |
| `Verif.Operator.C146_off_lane_violated` | none |
| `Verif.Operator.C146_one` | none |
| `Verif.Operator.C146_one_point` | propext, Quot.sound |
| `Verif.Operator.C146_points` | propext, Quot.sound |
| `Verif.Operator.C146_replan_partial` | propext |
| `Verif.Operator.C146_replan_violated` | none |
| `Verif.Operator.C146_unreachable_violated` | none |
| `Verif.Operator.C147_frame_defined` | propext, Quot.sound |
| `Verif.Operator.C147_kept` | propext |
| `Verif.Operator.C147_respawn` | propext |
| `Verif.Operator.C147_speed_change` | propext |
| `Verif.Operator.C147_time_violated` | none |
| `Verif.Operator.C147_trajectory` | propext, Quot.sound |
| `Verif.Operator.C147_trajectory_error` | propext |
| `Verif.Operator.C147_velocity_limit` | none |
| `Verif.Operator.C148_again_violated` | propext |
| `Verif.Operator.C148_never_twice` | propext, Quot.sound |
| `Verif.Operator.C148_refused` | propext, Quot.sound |
| `Verif.Operator.C148_sent` | propext, Quot.sound |
| `Verif.Orca.C169_aligned_partial` | propext, Classical.choice, Quot.sound |
| `Verif.Orca.C169_best_partial` | propext, Classical.choice, Quot.sound |
| `Verif.Orca.C169_parallel_violated` | propext, Classical.choice, Quot.sound |
| `Verif.Orca.C169_returns` | propext, Classical.choice, Quot.sound |
| `Verif.Orca.C169_speed` | propext, Classical.choice, Quot.sound |
| `Verif.Orca.C169_thrown_violated` | propext, Classical.choice, Quot.sound |
| `Verif.Orca.C170_least_partial` | propext, Classical.choice, Quot.sound |
| `Verif.Orca.C171_across_violated` | propext, Classical.choice, Quot.sound |
| `Verif.Orca.C171_apart_partial` | propext, Classical.choice, Quot.sound |
| `Verif.Orca.C171_end_not_avoided` | propext, Classical.choice, Quot.sound |
| `Verif.Orca.C171_end_violated` | propext, Classical.choice, Quot.sound |
| `Verif.Orca.C171_parted_partial` | propext, Classical.choice, Quot.sound |
| `Verif.Orca.C171_same_violated` | propext, Classical.choice, Quot.sound |
| `Verif.Orca.C172_free` | propext, Classical.choice, Quot.sound |
| `Verif.Orca.C172_ignored` | propext, Classical.choice, Quot.sound |
| `Verif.Orca.C172_moves_partial` | propext, Classical.choice, Quot.sound |
| `Verif.Orca.C172_pair_partial` | propext, Classical.choice, Quot.sound |
| `Verif.Orca.C172_stands_partial` | propext, Classical.choice, Quot.sound |
| `Verif.Orca.C172_unlimited_violated` | propext, Classical.choice, Quot.sound |
| `Verif.Orca.C173_back_violated` | propext, Classical.choice, Quot.sound |
| `Verif.Orca.C173_follow_lane` | propext, Classical.choice, Quot.sound |
| `Verif.Orca.C173_goal` | propext, Classical.choice, Quot.sound |
| `Verif.Orca.C173_lost_violated` | propext, Classical.choice, Quot.sound |
| `Verif.Orca.C173_other_violated` | propext, Classical.choice, Quot.sound |
| `Verif.Orca.C174_done` | propext, Classical.choice, Quot.sound |
| `Verif.Orca.C174_endless_violated` | propext, Classical.choice, Quot.sound |
| `Verif.Orca.C174_follow` | propext, Classical.choice, Quot.sound |
| `Verif.Orca.C174_goes_on` | propext, Classical.choice, Quot.sound |
| `Verif.Orca.C174_last_violated` | propext, Classical.choice, Quot.sound |
| `Verif.Orca.C174_replace_violated` | propext, Classical.choice, Quot.sound |
| `Verif.Orca.C174_speed_partial` | propext, Classical.choice, Quot.sound |
| `Verif.Orca.C174_untimed_violated` | propext, Classical.choice, Quot.sound |
| `Verif.Orca.C174_wait` | propext, Classical.choice, Quot.sound |
| `Verif.Pace.C223_auto_violated` | propext, Classical.choice, Quot.sound |
| `Verif.Pace.C223_superseded_violated` | propext, Classical.choice, Quot.sound |
| `Verif.Pace.C223_time_partial` | propext, Classical.choice, Quot.sound |
| `Verif.Pace.C224_down_partial` | propext, Classical.choice, Quot.sound |
| `Verif.Pace.C224_limit_down` | propext, Classical.choice, Quot.sound |
| `Verif.Pace.C224_limit_up` | propext, Classical.choice, Quot.sound |
| `Verif.Pace.C224_rate_violated` | propext, Classical.choice, Quot.sound |
| `Verif.Pace.C224_up` | propext, Classical.choice, Quot.sound |
| `Verif.Pace.C225_no_constraint_violated` | propext, Quot.sound |
| `Verif.Pace.C225_no_time` | propext, Quot.sound |
| `Verif.Pace.C225_step_partial` | propext, Classical.choice, Quot.sound |
| `Verif.Pace.C226_continuous_time` | propext, Quot.sound |
| `Verif.Pace.C226_disappears_violated` | propext, Classical.choice, Quot.sound |
| `Verif.Pace.C226_first_frame_violated` | propext, Classical.choice, Quot.sound |
| `Verif.Pace.C226_follows_partial` | propext, Classical.choice, Quot.sound |
| `Verif.Pace.C226_missing` | propext, Quot.sound |
| `Verif.Pace.C226_own` | propext, Quot.sound |
| `Verif.Pace.C226_step` | propext, Classical.choice, Quot.sound |
| `Verif.Pace.C226_time` | propext, Quot.sound |
| `Verif.Pace.C226_unconstrained` | propext, Classical.choice, Quot.sound |
| `Verif.Pace.C227_restored_partial` | propext, Classical.choice, Quot.sound |
| `Verif.Pace.C227_set_before_violated` | propext, Classical.choice, Quot.sound |
| `Verif.Pace.C227_superseded_violated` | propext, Classical.choice, Quot.sound |
| `Verif.Pace.C228_first_frame_violated` | propext, Quot.sound |
| `Verif.Pace.C228_kept_partial` | propext, Classical.choice, Quot.sound |
| `Verif.Pace.C228_time_violated` | propext, Classical.choice, Quot.sound |
| `Verif.Parameter.C46_integer` | propext, Classical.choice, Quot.sound |
| `Verif.Parameter.C46_large_integer_violated` | propext, Classical.choice, Quot.sound |
| `Verif.Parameter.C46_meaning` | propext, Classical.choice, Quot.sound |
| `Verif.Parameter.C46_measured_partial` | propext, Classical.choice, Quot.sound |
| `Verif.Parameter.C46_measured_violated` | propext, Classical.choice, Quot.sound |
| `Verif.Parameter.C46_operations` | propext, Classical.choice, Quot.sound |
| `Verif.Parameter.C46_other_types` | propext, Classical.choice, Quot.sound |
| `Verif.Parameter.C46_rules` | propext, Classical.choice, Quot.sound |
| `Verif.Parameter.C46_short_partial` | propext, Classical.choice, Quot.sound |
| `Verif.Parameter.C46_unsigned_partial` | propext, Classical.choice, Quot.sound |
| `Verif.Parameter.C46_unsigned_violated` | propext, Classical.choice, Quot.sound |
| `Verif.Parameter.C56_constraints` | propext, Classical.choice, Quot.sound |
| `Verif.Pedestrian.C160_area_violated` | propext, Classical.choice, Quot.sound |
| `Verif.Pedestrian.C160_blind` | propext, Classical.choice, Quot.sound |
| `Verif.Pedestrian.C160_front` | propext, Classical.choice, Quot.sound |
| `Verif.Pedestrian.C160_modes` | propext, Classical.choice, Quot.sound |
| `Verif.Pedestrian.C160_narrow_violated` | propext, Classical.choice, Quot.sound |
| `Verif.Pedestrian.C160_same_place_violated` | propext, Classical.choice, Quot.sound |
| `Verif.Pedestrian.C160_stops` | propext, Classical.choice, Quot.sound |
| `Verif.Pedestrian.C160_waypoints` | propext, Classical.choice, Quot.sound |
| `Verif.Pedestrian.C161_end` | propext, Classical.choice, Quot.sound |
| `Verif.Pedestrian.C161_global` | propext, Classical.choice, Quot.sound |
| `Verif.Pedestrian.C161_jump_violated` | propext, Classical.choice, Quot.sound |
| `Verif.Pedestrian.C161_line_partial` | propext, Classical.choice, Quot.sound |
| `Verif.Pedestrian.C161_straight_partial` | propext, Classical.choice, Quot.sound |
| `Verif.Pedestrian.C161_turning` | propext, Classical.choice, Quot.sound |
| `Verif.Pedestrian.C162_ahead_violated` | propext, Classical.choice, Quot.sound |
| `Verif.Pedestrian.C162_behind_violated` | propext, Classical.choice, Quot.sound |
| `Verif.Pedestrian.C162_blind` | propext, Classical.choice, Quot.sound |
| `Verif.Pedestrian.C162_decision` | propext, Classical.choice, Quot.sound |
| `Verif.Pedestrian.C162_north_partial` | propext, Classical.choice, Quot.sound |
| `Verif.Pedestrian.C162_off` | propext, Classical.choice, Quot.sound |
| `Verif.Pedestrian.C162_others` | propext, Classical.choice, Quot.sound |
| `Verif.Pedestrian.C163_horizon` | propext, Classical.choice, Quot.sound |
| `Verif.Pedestrian.C163_waypoints` | propext, Classical.choice, Quot.sound |
| `Verif.Place.C150_add_lane` | propext, Quot.sound |
| `Verif.Place.C150_add_relative_object_violated` | propext, Classical.choice, Quot.sound |
| `Verif.Place.C150_add_relative_partial` | propext, Quot.sound |
| `Verif.Place.C150_add_relative_world_violated` | propext, Quot.sound |
| `Verif.Place.C150_add_world` | propext, Quot.sound |
| `Verif.Place.C150_lane` | propext |
| `Verif.Place.C150_no_reference` | propext, Quot.sound |
| `Verif.Place.C150_relative_object_violated` | propext, Classical.choice, Quot.sound |
| `Verif.Place.C150_relative_partial` | propext, Quot.sound |
| `Verif.Place.C150_relative_world_violated` | propext, Classical.choice, Quot.sound |
| `Verif.Place.C150_set_lane` | propext |
| `Verif.Place.C150_to_lane` | propext, Quot.sound |
| `Verif.Place.C150_world_keeps_lane` | propext |
| `Verif.Place.C150_world_partial` | propext |
| `Verif.Place.C150_world_violated` | propext, Classical.choice, Quot.sound |
| `Verif.Place.C151_added` | propext, Quot.sound |
| `Verif.Place.C151_guard` | propext |
| `Verif.Place.C151_guard_violated` | propext, Classical.choice, Quot.sound |
| `Verif.Place.C151_report` | propext |
| `Verif.Place.C151_sound` | propext, Quot.sound |
| `Verif.Preprocessor.C44_after_failure_partial` | propext |
| `Verif.Preprocessor.C44_answer` | propext, Classical.choice, Quot.sound |
| `Verif.Preprocessor.C44_distribution_violated` | propext |
| `Verif.Preprocessor.C44_no_output` | propext |
| `Verif.Preprocessor.C44_queue_partial` | propext |
| `Verif.Preprocessor.C44_violated` | propext |
| `Verif.Preprocessor.C54_overrides` | propext, Quot.sound |
| `Verif.Process.C229_asked` | propext, Classical.choice, Quot.sound |
| `Verif.Process.C229_ended_partial` | propext, Classical.choice, Quot.sound |
| `Verif.Process.C229_finishes` | propext, Classical.choice, Quot.sound |
| `Verif.Process.C229_hangs_violated` | propext, Classical.choice, Quot.sound |
| `Verif.Process.C229_interrupted_violated` | propext |
| `Verif.Process.C229_killed_partial` | propext, Classical.choice, Quot.sound |
| `Verif.Process.C229_left_violated` | propext, Classical.choice, Quot.sound |
| `Verif.Process.C229_stale_violated` | propext, Classical.choice, Quot.sound |
| `Verif.Process.C230_broadcast_violated` | propext, Quot.sound |
| `Verif.Process.C230_others_partial` | propext, Classical.choice, Quot.sound |
| `Verif.Process.C230_sent_partial` | propext, Classical.choice, Quot.sound |
| `Verif.Process.C231_noticed` | propext, Classical.choice, Quot.sound |
| `Verif.Process.C231_once` | propext |
| `Verif.Process.C231_running` | propext, Classical.choice, Quot.sound |
| `Verif.Process.C232_ended_partial` | propext, Classical.choice, Quot.sound |
| `Verif.Process.C232_shutdown_violated` | propext |
| `Verif.Process.C233_interrupted_violated` | propext |
| `Verif.Process.C233_returns` | propext, Classical.choice, Quot.sound |
| `Verif.Process.C233_stays` | propext, Classical.choice, Quot.sound |
| `Verif.Process.C233_waited_partial` | propext, Classical.choice, Quot.sound |
| `Verif.RandomTest.C164_behind_violated` | propext, Classical.choice, Quot.sound |
| `Verif.RandomTest.C164_defined` | propext, Quot.sound |
| `Verif.RandomTest.C164_ego_violated` | propext, Classical.choice, Quot.sound |
| `Verif.RandomTest.C164_empty` | propext, Quot.sound |
| `Verif.RandomTest.C164_npcs_partial` | propext, Classical.choice, Quot.sound |
| `Verif.RandomTest.C164_route_partial` | propext, Classical.choice, Quot.sound |
| `Verif.RandomTest.C165_ends` | propext, Classical.choice, Quot.sound |
| `Verif.RandomTest.C165_found` | propext, Classical.choice, Quot.sound |
| `Verif.RandomTest.C165_near_partial` | propext, Classical.choice, Quot.sound |
| `Verif.RandomTest.C165_refused` | propext, Quot.sound |
| `Verif.RandomTest.C165_ring_violated` | propext, Classical.choice, Quot.sound |
| `Verif.RandomTest.C165_short_violated` | propext, Classical.choice, Quot.sound |
| `Verif.RandomTest.C166_fixed_violated` | propext, Classical.choice, Quot.sound |
| `Verif.RandomTest.C166_goal` | propext, Quot.sound |
| `Verif.RandomTest.C166_none_violated` | propext, Quot.sound |
| `Verif.RandomTest.C166_one_violated` | propext, Classical.choice, Quot.sound |
| `Verif.RandomTest.C166_replay` | propext, Classical.choice, Quot.sound |
| `Verif.RandomTest.C166_tests` | propext, Classical.choice, Quot.sound |
| `Verif.RandomTest.C167_ends_partial` | propext, Classical.choice, Quot.sound |
| `Verif.RandomTest.C167_kept` | propext, Quot.sound |
| `Verif.RandomTest.C167_missing` | propext, Quot.sound |
| `Verif.RandomTest.C167_next` | propext, Quot.sound |
| `Verif.RandomTest.C167_order` | propext, Classical.choice, Quot.sound |
| `Verif.RandomTest.C167_over` | propext, Classical.choice, Quot.sound |
| `Verif.RandomTest.C167_pass_partial` | propext, Classical.choice, Quot.sound |
| `Verif.RandomTest.C167_refused_violated` | propext, Classical.choice, Quot.sound |
| `Verif.RandomTest.C167_setup` | propext, Quot.sound |
| `Verif.RandomTest.C167_silent_violated` | propext, Quot.sound |
| `Verif.RandomTest.C167_thrown` | propext, Classical.choice, Quot.sound |
| `Verif.RandomTest.C167_timeout` | propext, Classical.choice, Quot.sound |
| `Verif.RandomTest.C167_waits_violated` | propext, Classical.choice, Quot.sound |
| `Verif.RandomTest.C167_written` | propext, Classical.choice, Quot.sound |
| `Verif.RandomTest.C168_backwards_violated` | propext, Classical.choice, Quot.sound |
| `Verif.RandomTest.C168_before_violated` | propext, Classical.choice, Quot.sound |
| `Verif.RandomTest.C168_collision` | propext, Classical.choice, Quot.sound |
| `Verif.RandomTest.C168_never_violated` | propext, Quot.sound |
| `Verif.RandomTest.C168_others` | propext, Classical.choice, Quot.sound |
| `Verif.RandomTest.C168_standstill_partial` | propext, Classical.choice, Quot.sound |
| `Verif.Reach.C243_ego_partial` | propext, Classical.choice, Quot.sound |
| `Verif.Reach.C243_follows_violated` | propext, Classical.choice, Quot.sound |
| `Verif.Reach.C243_frames` | propext, Classical.choice, Quot.sound |
| `Verif.Reach.C243_late_violated` | propext, Classical.choice, Quot.sound |
| `Verif.Reach.C243_none` | propext, Quot.sound |
| `Verif.Reach.C244_after` | propext, Classical.choice, Quot.sound |
| `Verif.Reach.C244_before` | propext, Classical.choice, Quot.sound |
| `Verif.Reach.C244_beside` | propext, Quot.sound |
| `Verif.Reach.C244_near` | propext, Classical.choice, Quot.sound |
| `Verif.Reach.C244_on` | propext, Quot.sound |
| `Verif.Reach.C244_tolerance` | propext, Quot.sound |
| `Verif.Reach.C245_end` | propext, Classical.choice, Quot.sound |
| `Verif.Reach.C245_moved_partial` | propext, Classical.choice, Quot.sound |
| `Verif.Reach.C245_on_road_partial` | propext, Classical.choice, Quot.sound |
| `Verif.Reach.C245_stays` | propext, Classical.choice, Quot.sound |
| `Verif.Reach.C245_stopped` | propext, Classical.choice, Quot.sound |
| `Verif.Reach.C246_measured_partial` | propext, Classical.choice, Quot.sound |
| `Verif.Reach.C246_time_violated` | propext, Classical.choice, Quot.sound |
| `Verif.Reader.C115_done` | propext, Classical.choice, Quot.sound |
| `Verif.Reader.C115_empty_violated` | propext, Classical.choice, Quot.sound |
| `Verif.Reader.C115_expression` | propext, Classical.choice, Quot.sound |
| `Verif.Reader.C115_lines_violated` | propext, Classical.choice, Quot.sound |
| `Verif.Reader.C115_missing` | propext, Classical.choice, Quot.sound |
| `Verif.Reader.C115_no_parameter` | propext, Classical.choice, Quot.sound |
| `Verif.Reader.C115_reference` | propext, Classical.choice, Quot.sound |
| `Verif.Reader.C115_returns` | propext, Classical.choice, Quot.sound |
| `Verif.Reader.C115_returns_violated` | propext, Classical.choice, Quot.sound |
| `Verif.Reader.C115_ros2_violated` | propext, Classical.choice, Quot.sound |
| `Verif.Reader.C115_substitute` | propext, Classical.choice, Quot.sound |
| `Verif.Reader.C115_text` | propext, Classical.choice, Quot.sound |
| `Verif.Reader.C115_unknown` | propext, Classical.choice, Quot.sound |
| `Verif.Reader.C115_value` | propext, Classical.choice, Quot.sound |
| `Verif.Reader.C116_choice` | propext, Classical.choice, Quot.sound |
| `Verif.Reader.C116_deterministic_violated` | propext, Quot.sound |
| `Verif.Reader.C116_element` | propext, Classical.choice, Quot.sound |
| `Verif.Reader.C116_elements` | propext, Classical.choice, Quot.sound |
| `Verif.Reader.C116_twice_violated` | propext, Classical.choice, Quot.sound |
| `Verif.Reader.C116_unknown_violated` | propext, Quot.sound |
| `Verif.Registry.C25_after_close_violated` | propext |
| `Verif.Registry.C25_refused_changes_nothing` | propext, Classical.choice, Quot.sound |
| `Verif.Registry.C25_registry` | propext, Classical.choice, Quot.sound |
| `Verif.Registry.C25_standalone` | propext, Classical.choice, Quot.sound |
| `Verif.Registry.C26_pairs` | propext, Classical.choice, Quot.sound |
| `Verif.Registry.C48_mirror` | propext, Classical.choice, Quot.sound |
| `Verif.Registry.C48_standalone_violated` | propext, Quot.sound |
| `Verif.Registry.C49_others_partial` | propext, Classical.choice, Quot.sound |
| `Verif.Registry.C49_violated` | propext, Classical.choice, Quot.sound |
| `Verif.Release.C247_detector` | propext, Classical.choice, Quot.sound |
| `Verif.Release.C247_headers` | propext, Classical.choice, Quot.sound |
| `Verif.Release.C247_order` | propext, Classical.choice, Quot.sound |
| `Verif.Release.C247_undated` | propext |
| `Verif.Release.C247_v2i` | propext, Classical.choice, Quot.sound |
| `Verif.Release.C248_dated_partial` | propext, Quot.sound |
| `Verif.Release.C248_foreign_violated` | none |
| `Verif.Release.C248_lights_partial` | propext, Quot.sound |
| `Verif.Release.C248_older_violated` | none |
| `Verif.Release.C249_convert` | propext, Quot.sound |
| `Verif.Release.C249_date` | propext, Classical.choice, Quot.sound |
| `Verif.Release.C249_latest` | propext, Quot.sound |
| `Verif.Release.C249_one` | propext, Quot.sound |
| `Verif.Release.C250_given` | propext, Quot.sound |
| `Verif.Release.C250_launch` | propext, Quot.sound |
| `Verif.Release.C250_lights` | propext, Classical.choice, Quot.sound |
| `Verif.Release.C250_scenario` | propext, Classical.choice, Quot.sound |
| `Verif.Release.C250_vehicle` | propext, Classical.choice, Quot.sound |
| `Verif.Report.C193_cases` | propext, Classical.choice, Quot.sound |
| `Verif.Report.C193_name` | propext, Quot.sound |
| `Verif.Report.C193_passed` | propext, Classical.choice, Quot.sound |
| `Verif.Report.C193_same_name_violated` | none |
| `Verif.Report.C193_suites` | propext, Classical.choice, Quot.sound |
| `Verif.Report.C193_totals` | propext, Quot.sound |
| `Verif.Report.C194_at_once` | propext, Classical.choice, Quot.sound |
| `Verif.Report.C194_starts` | propext, Classical.choice, Quot.sound |
| `Verif.Report.C194_waits` | propext, Quot.sound |
| `Verif.Report.C194_zero_violated` | propext, Classical.choice, Quot.sound |
| `Verif.Report.C195_mean` | propext, Classical.choice, Quot.sound |
| `Verif.Report.C195_says` | propext, Classical.choice, Quot.sound |
| `Verif.Report.C195_stale_violated` | propext, Quot.sound |
| `Verif.Report.C195_there` | propext, Classical.choice, Quot.sound |
| `Verif.Report.C195_variance` | propext, Classical.choice, Quot.sound |
| `Verif.Report.C195_written` | propext, Quot.sound |
| `Verif.Report.C196_drift_violated` | propext, Classical.choice, Quot.sound |
| `Verif.Report.C196_exact` | propext, Classical.choice, Quot.sound |
| `Verif.Report.C196_fast_violated` | propext, Classical.choice, Quot.sound |
| `Verif.Report.C196_period_partial` | propext, Classical.choice, Quot.sound |
| `Verif.Request.C189_accepted` | propext, Quot.sound |
| `Verif.Request.C189_last_partial` | propext, Quot.sound |
| `Verif.Request.C189_off_lane_violated` | propext |
| `Verif.Request.C189_pedestrian_goals_violated` | propext |
| `Verif.Request.C189_refused_partial` | propext, Quot.sound |
| `Verif.Request.C189_refused_violated` | propext |
| `Verif.Request.C189_route` | propext |
| `Verif.Request.C189_silent_violated` | propext |
| `Verif.Request.C189_told_partial` | propext, Quot.sound |
| `Verif.Request.C190_defaults` | propext, Classical.choice, Quot.sound |
| `Verif.Request.C190_ego_violated` | propext, Quot.sound |
| `Verif.Request.C190_kept` | propext, Quot.sound |
| `Verif.Request.C190_last` | propext, Quot.sound |
| `Verif.Request.C190_misc_violated` | propext, Quot.sound |
| `Verif.Request.C190_never_negative` | propext, Quot.sound |
| `Verif.Request.C190_others` | propext, Quot.sound |
| `Verif.Request.C190_refused` | propext, Quot.sound |
| `Verif.Request.C190_reset` | propext, Quot.sound |
| `Verif.Request.C190_set` | propext, Quot.sound |
| `Verif.Request.C190_vehicle` | propext, Quot.sound |
| `Verif.Request.C190_within` | propext, Quot.sound |
| `Verif.Request.C191_backwards_violated` | propext, Classical.choice, Quot.sound |
| `Verif.Request.C191_error` | propext, Quot.sound |
| `Verif.Request.C191_final_speed_violated` | propext, Classical.choice, Quot.sound |
| `Verif.Request.C191_forwards_partial` | propext, Classical.choice, Quot.sound |
| `Verif.Request.C191_gentle` | propext, Classical.choice, Quot.sound |
| `Verif.Request.C191_in_step` | propext, Classical.choice, Quot.sound |
| `Verif.Request.C191_over` | propext, Quot.sound |
| `Verif.Request.C191_pace` | propext, Classical.choice, Quot.sound |
| `Verif.Request.C191_request` | propext |
| `Verif.Request.C191_standing_violated` | propext, Classical.choice, Quot.sound |
| `Verif.Request.C192_complains` | propext, Classical.choice, Quot.sound |
| `Verif.Request.C192_end_violated` | propext, Classical.choice, Quot.sound |
| `Verif.Request.C192_first` | propext, Classical.choice, Quot.sound |
| `Verif.Request.C192_names` | propext, Classical.choice, Quot.sound |
| `Verif.Request.C192_silent` | propext, Classical.choice, Quot.sound |
| `Verif.Route.C35_cancelled` | propext, Quot.sound |
| `Verif.Route.C35_dropped` | propext, Quot.sound |
| `Verif.Route.C35_suffix` | propext, Quot.sound |
| `Verif.Route.C35_whole` | propext |
| `Verif.Route.C64_ahead_violated` | propext, Quot.sound |
| `Verif.Route.C64_passed_partial` | propext, Quot.sound |
| `Verif.Route.C64_second_violated` | propext, Quot.sound |
| `Verif.Route.C65_new_waypoints_violated` | propext, Quot.sound |
| `Verif.Route.C65_second_waypoint_violated` | propext, Quot.sound |
| `Verif.Route.C65_toward_waypoint_partial` | propext, Quot.sound |
| `Verif.Route.C66_graph_partial` | propext, Quot.sound |
| `Verif.Route.C66_violated` | propext, Quot.sound |
| `Verif.Route.C67_shortest_partial` | propext, Quot.sound |
| `Verif.Route.C67_violated` | propext, Quot.sound |
| `Verif.Routing.C204_ambiguous_violated` | propext, Classical.choice, Quot.sound |
| `Verif.Routing.C204_each` | propext, Classical.choice, Quot.sound |
| `Verif.Routing.C204_error` | propext, Classical.choice, Quot.sound |
| `Verif.Routing.C204_lanes` | propext, Classical.choice, Quot.sound |
| `Verif.Routing.C204_parameter` | propext, Classical.choice, Quot.sound |
| `Verif.Routing.C204_property` | propext, Classical.choice, Quot.sound |
| `Verif.Routing.C204_silent_violated` | propext, Classical.choice, Quot.sound |
| `Verif.Routing.C205_actors` | propext, Quot.sound |
| `Verif.Routing.C205_closed_violated` | propext, Classical.choice, Quot.sound |
| `Verif.Routing.C205_route_partial` | propext, Quot.sound |
| `Verif.Routing.C206_lane` | none |
| `Verif.Routing.C206_map` | propext, Quot.sound |
| `Verif.Routing.C206_offLane_violated` | propext, Quot.sound |
| `Verif.Routing.C206_order_violated` | none |
| `Verif.Scope.C23_ambiguous` | propext, Classical.choice, Quot.sound |
| `Verif.Scope.C23_found` | propext, Classical.choice, Quot.sound |
| `Verif.Scope.C23_missing` | propext, Classical.choice, Quot.sound |
| `Verif.Scope.C23_scopes` | propext, Classical.choice, Quot.sound |
| `Verif.Scope.C47_absolute_errors` | propext, Classical.choice, Quot.sound |
| `Verif.Scope.C47_absolute_partial` | propext, Classical.choice, Quot.sound |
| `Verif.Scope.C47_relative_ambiguous` | propext, Classical.choice, Quot.sound |
| `Verif.Scope.C47_relative_partial` | propext, Classical.choice, Quot.sound |
| `Verif.Scope.C47_violated` | propext |
| `Verif.Select.C184_bytype_partial` | propext, Classical.choice, Quot.sound |
| `Verif.Select.C184_known` | propext, Classical.choice, Quot.sound |
| `Verif.Select.C184_object_partial` | propext, Classical.choice, Quot.sound |
| `Verif.Select.C184_read` | propext, Classical.choice, Quot.sound |
| `Verif.Select.C184_selection_partial` | propext, Classical.choice, Quot.sound |
| `Verif.Select.C184_twice_violated` | propext |
| `Verif.Select.C185_declared` | propext, Classical.choice, Quot.sound |
| `Verif.Select.C185_objects` | propext, Quot.sound |
| `Verif.Select.C185_refs_partial` | propext, Classical.choice, Quot.sound |
| `Verif.Select.C185_types_partial` | propext, Classical.choice, Quot.sound |
| `Verif.Select.C186_collides_partial` | propext, Quot.sound |
| `Verif.Select.C186_nothing_violated` | propext, Classical.choice, Quot.sound |
| `Verif.Select.C186_object` | propext, Quot.sound |
| `Verif.Select.C186_read` | propext, Quot.sound |
| `Verif.Select.C186_selection_violated` | propext, Quot.sound |
| `Verif.Select.C186_type` | propext, Quot.sound |
| `Verif.Sensing.C139_documented` | propext, Classical.choice, Quot.sound |
| `Verif.Sensing.C139_longitudinal_partial` | propext, Classical.choice, Quot.sound |
| `Verif.Sensing.C139_longitudinal_violated` | propext, Classical.choice, Quot.sound |
| `Verif.Sensing.C139_ratio_violated` | propext, Classical.choice, Quot.sound |
| `Verif.Sensing.C139_ring` | propext, Classical.choice, Quot.sound |
| `Verif.Sensing.C139_sizes` | propext, Classical.choice, Quot.sound |
| `Verif.Sensing.C140_applies` | propext, Classical.choice, Quot.sound |
| `Verif.Sensing.C140_dot_violated` | propext, Classical.choice, Quot.sound |
| `Verif.Sensing.C140_first` | propext, Classical.choice, Quot.sound |
| `Verif.Sensing.C140_none` | propext, Classical.choice, Quot.sound |
| `Verif.Sensing.C140_only` | propext, Classical.choice, Quot.sound |
| `Verif.Sensing.C140_wildcards` | propext, Classical.choice, Quot.sound |
| `Verif.Sensing.C141_beyond_violated` | propext, Classical.choice, Quot.sound |
| `Verif.Sensing.C141_bin` | propext, Classical.choice, Quot.sound |
| `Verif.Sensing.C141_each` | propext, Classical.choice, Quot.sound |
| `Verif.Sensing.C141_radial` | propext, Classical.choice, Quot.sound |
| `Verif.Sensing.C141_radius_violated` | propext, Classical.choice, Quot.sound |
| `Verif.Sensing.C141_ratios_violated` | propext, Classical.choice, Quot.sound |
| `Verif.Sensing.C141_remembered` | propext, Classical.choice, Quot.sound |
| `Verif.Sensing.C141_sizes_violated` | propext, Classical.choice, Quot.sound |
| `Verif.Sensing.C141_tangential_partial` | propext, Classical.choice, Quot.sound |
| `Verif.Sensing.C141_tangential_violated` | propext, Classical.choice, Quot.sound |
| `Verif.Sensing.C141_untouched` | propext, Classical.choice, Quot.sound |
| `Verif.Sensing.C142_closest` | propext, Classical.choice, Quot.sound |
| `Verif.Sensing.C142_flip` | propext, Classical.choice, Quot.sound |
| `Verif.Sensing.C142_flip4` | propext, Classical.choice, Quot.sound |
| `Verif.Sensing.C142_pivot` | propext, Classical.choice, Quot.sound |
| `Verif.Sensing.C142_quiet` | propext, Classical.choice, Quot.sound |
| `Verif.Sensing.C142_same_place` | propext, Classical.choice, Quot.sound |
| `Verif.Sensing.C142_sight` | propext, Classical.choice, Quot.sound |
| `Verif.Sensing.C142_spot_partial` | propext, Classical.choice, Quot.sound |
| `Verif.Sensing.C142_spot_violated` | propext, Classical.choice, Quot.sound |
| `Verif.Sensing.C142_touching` | propext, Classical.choice, Quot.sound |
| `Verif.Sensing.C143_ahead_violated` | propext, Classical.choice, Quot.sound |
| `Verif.Sensing.C143_angles` | propext, Classical.choice, Quot.sound |
| `Verif.Sensing.C143_around` | propext, Classical.choice, Quot.sound |
| `Verif.Sensing.C143_down` | propext, Classical.choice, Quot.sound |
| `Verif.Sensing.C143_once_violated` | propext, Classical.choice, Quot.sound |
| `Verif.Sensing.C143_phase` | propext, Classical.choice, Quot.sound |
| `Verif.Sensing.C143_phase_violated` | propext, Classical.choice, Quot.sound |
| `Verif.Sensing.C143_points` | propext, Classical.choice, Quot.sound |
| `Verif.Sensing.C143_rays` | propext, Classical.choice, Quot.sound |
| `Verif.Sensing.C143_resolution_violated` | propext, Classical.choice, Quot.sound |
| `Verif.Sensing.C143_seen` | propext, Classical.choice, Quot.sound |
| `Verif.Sensing.C144_heading_violated` | propext, Classical.choice, Quot.sound |
| `Verif.Sensing.C144_level_partial` | propext, Classical.choice, Quot.sound |
| `Verif.Sensing.C144_noise` | propext, Classical.choice, Quot.sound |
| `Verif.Sensing.C144_published` | propext, Classical.choice, Quot.sound |
| `Verif.Sensing.C144_quiet` | propext, Classical.choice, Quot.sound |
| `Verif.Sensing.C144_slope_violated` | propext, Classical.choice, Quot.sound |
| `Verif.Server.C105_mode` | propext, Classical.choice, Quot.sound |
| `Verif.Server.C105_one` | propext, Classical.choice, Quot.sound |
| `Verif.Server.C105_requests` | propext, Classical.choice, Quot.sound |
| `Verif.Server.C105_who` | propext, Classical.choice, Quot.sound |
| `Verif.Server.C106_despawn` | propext, Classical.choice, Quot.sound |
| `Verif.Server.C106_frame` | propext, Classical.choice, Quot.sound |
| `Verif.Server.C106_known` | propext, Classical.choice, Quot.sound |
| `Verif.Server.C106_same_name_violated` | propext |
| `Verif.Server.C106_spawn` | propext, Classical.choice, Quot.sound |
| `Verif.Server.C106_stale_status_violated` | propext |
| `Verif.Server.C106_unknown` | propext, Classical.choice, Quot.sound |
| `Verif.Server.C106_update` | propext, Classical.choice, Quot.sound |
| `Verif.Signal.C15_command` | propext, Classical.choice, Quot.sound |
| `Verif.Signal.C15_cycle` | propext, Classical.choice, Quot.sound |
| `Verif.Signal.C15_evaluation` | propext, Classical.choice, Quot.sound |
| `Verif.Signal.C15_reported` | propext, Classical.choice, Quot.sound |
| `Verif.Signal.C16_begins_partial` | propext, Classical.choice, Quot.sound |
| `Verif.Signal.C16_not_before` | propext, Classical.choice, Quot.sound |
| `Verif.Signal.C16_violated` | propext, Classical.choice, Quot.sound |
| `Verif.Signal.C17_no_leak` | propext, Classical.choice, Quot.sound |
| `Verif.Signal.C18_predictions_partial` | propext, Classical.choice, Quot.sound |
| `Verif.Signal.C18_short_phases_not_predicted` | propext, Classical.choice, Quot.sound |
| `Verif.Signal.C18_violated` | propext, Classical.choice, Quot.sound |
| `Verif.Spawn.C251_altitude` | propext, Quot.sound |
| `Verif.Spawn.C251_error` | propext, Quot.sound |
| `Verif.Spawn.C251_lane` | propext, Classical.choice, Quot.sound |
| `Verif.Spawn.C251_usable` | propext, Quot.sound |
| `Verif.Spawn.C251_world` | propext, Classical.choice, Quot.sound |
| `Verif.Spawn.C252_all` | propext, Quot.sound |
| `Verif.Spawn.C252_any` | propext, Quot.sound |
| `Verif.Spawn.C252_conflicts` | propext, Quot.sound |
| `Verif.Spawn.C252_filter` | propext, Quot.sound |
| `Verif.Spawn.C252_path` | propext, Quot.sound |
| `Verif.Spawn.C252_right` | propext, Quot.sound |
| `Verif.Spawn.C252_rights` | propext, Quot.sound |
| `Verif.Spawn.C253_error` | propext, Quot.sound |
| `Verif.Spawn.C253_least` | propext, Quot.sound |
| `Verif.Spawn.C254_first_partial` | propext, Quot.sound |
| `Verif.Spawn.C254_second_violated` | propext, Quot.sound |
| `Verif.Spawn.C254_stale` | propext |
| `Verif.Speed.C33_acceleration_partial` | propext, Classical.choice, Quot.sound |
| `Verif.Speed.C33_beyond_limit_violated` | propext, Classical.choice, Quot.sound |
| `Verif.Speed.C33_jerk_partial` | propext, Classical.choice, Quot.sound |
| `Verif.Speed.C33_jerk_violated` | propext, Classical.choice, Quot.sound |
| `Verif.Speed.C33_no_overshoot` | propext, Classical.choice, Quot.sound |
| `Verif.Speed.C33_speed_limit` | propext, Classical.choice, Quot.sound |
| `Verif.Speed.C34_converges` | propext, Classical.choice, Quot.sound |
| `Verif.Speed.C57_distance_violated` | propext, Classical.choice, Quot.sound |
| `Verif.Speed.C57_error_partial` | propext, Classical.choice, Quot.sound |
| `Verif.Speed.C57_no_braking_violated` | propext, Classical.choice, Quot.sound |
| `Verif.Speed.C57_terminates_partial` | propext, Classical.choice, Quot.sound |
| `Verif.Speed.C58_duration_partial` | propext, Classical.choice, Quot.sound |
| `Verif.Speed.C58_violated` | propext, Classical.choice, Quot.sound |
| `Verif.Speed.C59_braking_violated` | propext, Classical.choice, Quot.sound |
| `Verif.Speed.C59_time_constraint_partial` | propext, Classical.choice, Quot.sound |
| `Verif.Storyboard.C01_life_cycle` | propext, Classical.choice, Quot.sound |
| `Verif.Storyboard.C01_no_silent_change` | propext, Classical.choice, Quot.sound |
| `Verif.Storyboard.C02_execution_bound` | propext, Classical.choice, Quot.sound |
| `Verif.Storyboard.C02_starts_bound` | propext, Classical.choice, Quot.sound |
| `Verif.Storyboard.C02_zero_executes_once` | propext, Quot.sound |
| `Verif.Storyboard.C03_actions_only_while_running` | propext, Classical.choice, Quot.sound |
| `Verif.Storyboard.C03_complete_is_final` | propext, Classical.choice, Quot.sound |
| `Verif.Storyboard.C04_overridden_completes` | propext, Quot.sound |
| `Verif.Storyboard.C04_overridden_is_final` | propext, Classical.choice, Quot.sound |
| `Verif.Storyboard.C04_override` | propext, Classical.choice, Quot.sound |
| `Verif.Storyboard.C05_skip` | propext, Classical.choice, Quot.sound |
| `Verif.Storyboard.C05_stays_in_standby` | propext, Quot.sound |
| `Verif.Storyboard.C06_children_complete` | propext, Classical.choice, Quot.sound |
| `Verif.Storyboard.C07_act_completes` | propext, Classical.choice, Quot.sound |
| `Verif.Storyboard.C07_act_partial` | propext, Classical.choice, Quot.sound |
| `Verif.Storyboard.C07_descendants_partial` | propext, Classical.choice, Quot.sound |
| `Verif.Storyboard.C07_storyboard_completes` | propext, Classical.choice, Quot.sound |
| `Verif.Storyboard.C07_violated` | propext, Quot.sound |
| `Verif.Storyboard.C08_act` | propext, Quot.sound |
| `Verif.Storyboard.C08_event` | propext, Quot.sound |
| `Verif.Storyboard.C08_group` | propext, Quot.sound |
| `Verif.Storyboard.C08_init_first` | propext, Quot.sound |
| `Verif.Storyboard.C08_maneuver` | propext, Quot.sound |
| `Verif.Storyboard.C08_story` | propext, Quot.sound |
| `Verif.Storyboard.C08_storyboard` | propext, Quot.sound |
| `Verif.Storyboard.C69_act_fires` | propext, Quot.sound |
| `Verif.Storyboard.C69_act_waits` | propext, Quot.sound |
| `Verif.Storyboard.C69_action_running` | propext, Quot.sound |
| `Verif.Storyboard.C69_action_starts` | propext, Quot.sound |
| `Verif.Storyboard.C69_answered` | propext, Quot.sound |
| `Verif.Storyboard.C69_end_has_cause` | propext, Quot.sound |
| `Verif.Storyboard.C69_event_fires` | propext, Quot.sound |
| `Verif.Storyboard.C69_event_running` | propext, Quot.sound |
| `Verif.Storyboard.C69_event_waits` | propext, Quot.sound |
| `Verif.Storyboard.C69_group_running` | propext, Quot.sound |
| `Verif.Storyboard.C69_group_starts` | propext, Quot.sound |
| `Verif.Storyboard.C69_start_has_cause` | propext, Quot.sound |
| `Verif.TaskQueue.C36_front_defined` | propext, Quot.sound |
| `Verif.TaskQueue.C36_order` | propext, Quot.sound |
| `Verif.TaskQueue.C36_progress` | propext, Classical.choice, Quot.sound |
| `Verif.TaskQueue.C37_nothing_started` | propext, Quot.sound |
| `Verif.TaskQueue.C37_recorded` | propext, Quot.sound |
| `Verif.TaskQueue.C37_reported` | propext, Quot.sound |
| `Verif.TaskQueue.C38_empty_means_finished` | propext, Quot.sound |
| `Verif.TaskQueue.C38_failed_never_empty` | propext, Quot.sound |
| `Verif.Traffic.C31_count` | propext, Classical.choice, Quot.sound |
| `Verif.Traffic.C31_names_distinct` | propext, Classical.choice, Quot.sound |
| `Verif.Traffic.C31_negative_rate_violated` | propext, Classical.choice, Quot.sound |
| `Verif.Traffic.C31_schedule_independent` | propext, Classical.choice, Quot.sound |
| `Verif.Traffic.C31_spawned` | propext, Classical.choice, Quot.sound |
| `Verif.Traffic.C31_start` | propext, Classical.choice, Quot.sound |
| `Verif.Traffic.C31_terminates` | propext, Classical.choice, Quot.sound |
| `Verif.Traffic.C32_sink` | propext, Classical.choice, Quot.sound |
| `Verif.Traffic.C32_sinks` | propext, Quot.sound |
| `Verif.Traffic.C50_area_partial` | propext, Quot.sound |
| `Verif.Traffic.C50_violated` | propext, Quot.sound |
| `Verif.Vehicle.C100_brake` | propext, Classical.choice, Quot.sound |
| `Verif.Vehicle.C100_drive` | propext, Classical.choice, Quot.sound |
| `Verif.Vehicle.C100_drive_backward_violated` | propext, Classical.choice, Quot.sound |
| `Verif.Vehicle.C100_hold` | propext, Classical.choice, Quot.sound |
| `Verif.Vehicle.C100_park_rolls_violated` | propext, Classical.choice, Quot.sound |
| `Verif.Vehicle.C100_park_slope_violated` | propext, Classical.choice, Quot.sound |
| `Verif.Vehicle.C94_gear` | propext, Classical.choice, Quot.sound |
| `Verif.Vehicle.C94_ungeared` | propext, Classical.choice, Quot.sound |
| `Verif.Vehicle.C95_history` | propext, Classical.choice, Quot.sound |
| `Verif.Vehicle.C95_history_vel_partial` | propext, Classical.choice, Quot.sound |
| `Verif.Vehicle.C95_overshoot_violated` | propext, Classical.choice, Quot.sound |
| `Verif.Vehicle.C95_park_violated` | propext, Classical.choice, Quot.sound |
| `Verif.Vehicle.C95_reported` | propext, Classical.choice, Quot.sound |
| `Verif.Vehicle.C95_reported_change` | propext, Classical.choice, Quot.sound |
| `Verif.Vehicle.C95_speed` | propext, Classical.choice, Quot.sound |
| `Verif.Vehicle.C95_speed_rate` | propext, Classical.choice, Quot.sound |
| `Verif.Vehicle.C95_speed_rate_geared` | propext, Classical.choice, Quot.sound |
| `Verif.Vehicle.C95_speed_rate_slope` | propext, Classical.choice, Quot.sound |
| `Verif.Vehicle.C95_steer_rate` | propext, Classical.choice, Quot.sound |
| `Verif.Vehicle.C96_acc_history_partial` | propext, Classical.choice, Quot.sound |
| `Verif.Vehicle.C96_acc_lag` | propext, Classical.choice, Quot.sound |
| `Verif.Vehicle.C96_acc_partial` | propext, Classical.choice, Quot.sound |
| `Verif.Vehicle.C96_dead_band` | propext, Classical.choice, Quot.sound |
| `Verif.Vehicle.C96_speed_lag` | propext, Classical.choice, Quot.sound |
| `Verif.Vehicle.C96_speed_partial` | propext, Classical.choice, Quot.sound |
| `Verif.Vehicle.C96_steer` | propext, Classical.choice, Quot.sound |
| `Verif.Vehicle.C96_steer_full` | propext, Classical.choice, Quot.sound |
| `Verif.Vehicle.C96_steer_history` | propext, Classical.choice, Quot.sound |
| `Verif.Vehicle.C96_steer_lag` | propext, Classical.choice, Quot.sound |
| `Verif.Vehicle.C96_steer_lag_noGuard` | propext, Classical.choice, Quot.sound |
| `Verif.Vehicle.C96_windup_violated` | propext, Classical.choice, Quot.sound |
| `Verif.Vehicle.C97_delay` | propext, Classical.choice, Quot.sound |
| `Verif.Vehicle.C97_ideal` | propext, Classical.choice, Quot.sound |
| `Verif.Vehicle.C98_distance` | propext, Classical.choice, Quot.sound |
| `Verif.Vehicle.C98_ideal_acc` | propext, Classical.choice, Quot.sound |
| `Verif.Vehicle.C98_ideal_vel` | propext, Classical.choice, Quot.sound |
| `Verif.Vehicle.C98_rest` | propext, Classical.choice, Quot.sound |
| `Verif.Vehicle.C98_steady` | propext, Classical.choice, Quot.sound |
| `Verif.Vehicle.C98_turn` | propext, Classical.choice, Quot.sound |
| `Verif.Vehicle.C99_cell` | propext, Classical.choice, Quot.sound |
| `Verif.Vehicle.C99_defined` | propext, Classical.choice, Quot.sound |
| `Verif.Vehicle.C99_descending_violated` | propext, Classical.choice, Quot.sound |
| `Verif.Vehicle.C99_followed` | propext, Classical.choice, Quot.sound |
| `Verif.Vehicle.C99_node` | propext, Classical.choice, Quot.sound |
| `Verif.Vehicle.C99_one_column_violated` | propext, Classical.choice, Quot.sound |
| `Verif.Vehicle.C99_outside` | propext, Classical.choice, Quot.sound |
| `Verif.Vehicle.C99_range` | propext, Classical.choice, Quot.sound |
| `Verif.Vehicle.C99_read` | propext, Classical.choice, Quot.sound |
| `Verif.Vehicle.C99_unread` | propext, Classical.choice, Quot.sound |
| `Verif.Vehicle.C99_unread_file` | propext, Classical.choice, Quot.sound |
