import Verif.Action.EntitiesTheorems
import Verif.Action.Theorems
import Verif.Autoware.Theorems
import Verif.Behavior.CrossingTheorems
import Verif.Behavior.LaneChangeTheorems
import Verif.Behavior.LaneTheorems
import Verif.Behavior.RequestTheorems
import Verif.Behavior.StopTheorems
import Verif.Cache.Theorems
import Verif.Catalog.Theorems
import Verif.Clock.Theorems
import Verif.Command.CallTheorems
import Verif.Command.CommandTheorems
import Verif.Command.ValueTheorems
import Verif.Condition.Theorems
import Verif.Condition.WatchTheorems
import Verif.Contact.CorridorTheorems
import Verif.Contact.Theorems
import Verif.Convert.LightTheorems
import Verif.Convert.Theorems
import Verif.Detection.Theorems
import Verif.Distance.BoxTheorems
import Verif.Distance.ConditionTheorems
import Verif.Distance.LaneTheorems
import Verif.Distance.NearestTheorems
import Verif.Distance.RelativeTheorems
import Verif.Distribution.Theorems
import Verif.Ego.CommandTheorems
import Verif.Ego.OverwriteTheorems
import Verif.Ego.PoseTheorems
import Verif.Ego.ReportTheorems
import Verif.Entity.Theorems
import Verif.Enum.Theorems
import Verif.Expr.Theorems
import Verif.Follow.ControlTheorems
import Verif.Follow.DoNothingTheorems
import Verif.Follow.FailureTheorems
import Verif.Follow.LimitTheorems
import Verif.Follow.SelectTheorems
import Verif.Follow.WayMoveTheorems
import Verif.Follow.WayTheorems
import Verif.Geometry.BoxTheorems
import Verif.Geometry.CurveTheorems
import Verif.Geometry.PoseTheorems
import Verif.Geometry.SegmentTheorems
import Verif.Geometry.SolverTheorems
import Verif.Geometry.SplineCrossTheorems
import Verif.Geometry.SplinePlaceTheorems
import Verif.Geometry.SplineTheorems
import Verif.Geometry.SplineUseTheorems
import Verif.Geometry.TurnTheorems
import Verif.Grid.BuilderTheorems
import Verif.Grid.OutlineTheorems
import Verif.Grid.SensorTheorems
import Verif.Grid.ShadowTheorems
import Verif.Grid.TraversalTheorems
import Verif.Init.Theorems
import Verif.Interpreter.Theorems
import Verif.Job.Theorems
import Verif.Lamps.AskTheorems
import Verif.Lamps.RateTheorems
import Verif.Lamps.ShowTheorems
import Verif.Lanelet.Theorems
import Verif.Lanes.CenterlineTheorems
import Verif.Lanes.ChangeTheorems
import Verif.Lanes.QueryTheorems
import Verif.Light.Theorems
import Verif.Literal.Theorems
import Verif.Maps.Theorems
import Verif.Markers.FrameTheorems
import Verif.Markers.ShownTheorems
import Verif.Matching.AngleTheorems
import Verif.Matching.CanonicalTheorems
import Verif.Matching.ChoiceTheorems
import Verif.Matching.MatchTheorems
import Verif.Matching.PlaceTheorems
import Verif.Modify.Theorems
import Verif.Modify.YamlTheorems
import Verif.Monitor.Theorems
import Verif.Noise.ImuTheorems
import Verif.Noise.Theorems
import Verif.Operator.ControlTheorems
import Verif.Operator.CooperateTheorems
import Verif.Operator.RouteTheorems
import Verif.Orca.LineTheorems
import Verif.Orca.MotionTheorems
import Verif.Orca.PlannerTheorems
import Verif.Orca.SolverTheorems
import Verif.Pace.AutoTheorems
import Verif.Pace.LinearTheorems
import Verif.Pace.RelativeTheorems
import Verif.Pace.StepTheorems
import Verif.Pace.UnconstrainedTheorems
import Verif.Parameter.Theorems
import Verif.Pedestrian.LaneTheorems
import Verif.Pedestrian.Theorems
import Verif.Pedestrian.WalkTheorems
import Verif.Place.Theorems
import Verif.Preprocessor.Theorems
import Verif.Process.AutowareTheorems
import Verif.Process.NoticeTheorems
import Verif.Process.RecordTheorems
import Verif.Process.ViolationTheorems
import Verif.RandomTest.ExecutorTheorems
import Verif.RandomTest.SearchTheorems
import Verif.RandomTest.Theorems
import Verif.Reach.FrameTheorems
import Verif.Reach.LaneletTheorems
import Verif.Reach.RoadTheorems
import Verif.Reader.AttributeTheorems
import Verif.Reader.DocumentTheorems
import Verif.Registry.Theorems
import Verif.Release.DateTheorems
import Verif.Release.LaunchTheorems
import Verif.Release.PathTheorems
import Verif.Report.Theorems
import Verif.Request.Theorems
import Verif.Route.Theorems
import Verif.Routing.Theorems
import Verif.Scope.Theorems
import Verif.Select.Theorems
import Verif.Sensing.LidarTheorems
import Verif.Sensing.MovesTheorems
import Verif.Sensing.SelectTheorems
import Verif.Server.EntityTheorems
import Verif.Server.ModeTheorems
import Verif.Signal.Theorems
import Verif.Spawn.BoundTheorems
import Verif.Spawn.ControllerTheorems
import Verif.Spawn.MapTheorems
import Verif.Spawn.SourceTheorems
import Verif.Speed.Theorems
import Verif.Storyboard.ReactTheorems
import Verif.Storyboard.StopTheorems
import Verif.Storyboard.Theorems
import Verif.TaskQueue.Theorems
import Verif.Traffic.Theorems
import Verif.Vehicle.ApproachHistoryTheorems
import Verif.Vehicle.ApproachTheorems
import Verif.Vehicle.DelayTheorems
import Verif.Vehicle.GearTheorems
import Verif.Vehicle.LagTheorems
import Verif.Vehicle.LimitTheorems
import Verif.Vehicle.MapTheorems
import Verif.Vehicle.MotionTheorems
import Verif.Vehicle.SlopeTheorems
import Verif.Vehicle.TurnTheorems
/-
The axioms each claimed theorem depends on, printed by `lake build`.
-/
#print axioms Verif.Storyboard.C01_life_cycle
#print axioms Verif.Storyboard.C01_no_silent_change
#print axioms Verif.Storyboard.C02_execution_bound
#print axioms Verif.Storyboard.C02_starts_bound
#print axioms Verif.Storyboard.C02_zero_executes_once
#print axioms Verif.Storyboard.C03_complete_is_final
#print axioms Verif.Storyboard.C03_actions_only_while_running
#print axioms Verif.Storyboard.C04_override
#print axioms Verif.Storyboard.C04_overridden_is_final
#print axioms Verif.Storyboard.C04_overridden_completes
#print axioms Verif.Storyboard.C05_skip
#print axioms Verif.Storyboard.C05_stays_in_standby
#print axioms Verif.Storyboard.C06_children_complete
#print axioms Verif.Storyboard.C07_act_completes
#print axioms Verif.Storyboard.C07_storyboard_completes
#print axioms Verif.Storyboard.C07_descendants_partial
#print axioms Verif.Storyboard.C07_act_partial
#print axioms Verif.Storyboard.C07_violated
#print axioms Verif.Storyboard.C08_maneuver
#print axioms Verif.Storyboard.C08_act
#print axioms Verif.Storyboard.C08_story
#print axioms Verif.Storyboard.C08_storyboard
#print axioms Verif.Storyboard.C08_init_first
#print axioms Verif.Storyboard.C08_group
#print axioms Verif.Storyboard.C08_event
#print axioms Verif.Condition.C09_none
#print axioms Verif.Condition.C09_first_evaluation
#print axioms Verif.Condition.C09_edges
#print axioms Verif.Condition.C09_sticky
#print axioms Verif.Condition.C10_delay
#print axioms Verif.Condition.C10_sticky_stays
#print axioms Verif.Vehicle.C100_hold
#print axioms Verif.Vehicle.C100_brake
#print axioms Verif.Vehicle.C100_drive
#print axioms Verif.Vehicle.C100_park_rolls_violated
#print axioms Verif.Vehicle.C100_park_slope_violated
#print axioms Verif.Vehicle.C100_drive_backward_violated
#print axioms Verif.Ego.C101_place
#print axioms Verif.Ego.C101_orientation
#print axioms Verif.Ego.C101_lane
#print axioms Verif.Ego.C101_no_jump
#print axioms Verif.Ego.C101_tilted
#print axioms Verif.Ego.C101_early_violated
#print axioms Verif.Ego.C101_tilted_violated
#print axioms Verif.Ego.C102_place
#print axioms Verif.Ego.C102_heading
#print axioms Verif.Ego.C102_speed_partial
#print axioms Verif.Ego.C102_turn_partial
#print axioms Verif.Ego.C102_acceleration_partial
#print axioms Verif.Ego.C102_speed_violated
#print axioms Verif.Ego.C102_turn_violated
#print axioms Verif.Ego.C102_tilt_violated
#print axioms Verif.Ego.C102_junk_violated
#print axioms Verif.Ego.C103_step
#print axioms Verif.Ego.C103_defined
#print axioms Verif.Ego.C103_ideal
#print axioms Verif.Ego.C103_gear
#print axioms Verif.Ego.C103_gravity
#print axioms Verif.Ego.C103_unused
#print axioms Verif.Ego.C104_differences
#print axioms Verif.Ego.C104_told
#print axioms Verif.Ego.C104_time
#print axioms Verif.Ego.C104_jerk_violated
#print axioms Verif.Server.C105_mode
#print axioms Verif.Server.C105_who
#print axioms Verif.Server.C105_requests
#print axioms Verif.Server.C105_one
#print axioms Verif.Server.C106_known
#print axioms Verif.Server.C106_frame
#print axioms Verif.Server.C106_despawn
#print axioms Verif.Server.C106_update
#print axioms Verif.Server.C106_unknown
#print axioms Verif.Server.C106_spawn
#print axioms Verif.Server.C106_same_name_violated
#print axioms Verif.Server.C106_stale_status_violated
#print axioms Verif.Convert.C107_pose
#print axioms Verif.Convert.C107_action
#print axioms Verif.Convert.C107_time
#print axioms Verif.Convert.C107_status
#print axioms Verif.Convert.C107_update
#print axioms Verif.Convert.C107_parameters_partial
#print axioms Verif.Convert.C107_subtype_violated
#print axioms Verif.Convert.C107_trajectory
#print axioms Verif.Convert.C107_gear_partial
#print axioms Verif.Convert.C107_gear_violated
#print axioms Verif.Convert.C107_unique
#print axioms Verif.Convert.Lights.C108_direct
#print axioms Verif.Convert.Lights.C108_groups_partial
#print axioms Verif.Convert.Lights.C108_ways_partial
#print axioms Verif.Convert.Lights.C108_once
#print axioms Verif.Convert.Lights.C108_predictions_partial
#print axioms Verif.Convert.Lights.C108_element
#print axioms Verif.Convert.Lights.C108_upper_violated
#print axioms Verif.Convert.Lights.C108_id_violated
#print axioms Verif.Follow.C109_partial
#print axioms Verif.Follow.C109_violated
#print axioms Verif.Condition.C11_history
#print axioms Verif.Follow.C110_partial
#print axioms Verif.Follow.C110_deceleration_violated
#print axioms Verif.Follow.C110_target_violated
#print axioms Verif.Follow.C110_max_speed_violated
#print axioms Verif.Follow.C111_partial
#print axioms Verif.Follow.C111_slow_down_violated
#print axioms Verif.Follow.C111_rates_violated
#print axioms Verif.Follow.C112_stop
#print axioms Verif.Follow.C112_standstill
#print axioms Verif.Follow.C112_time
#print axioms Verif.Follow.C112_last
#print axioms Verif.Follow.C112_last_braking
#print axioms Verif.Follow.C112_last_passing
#print axioms Verif.Follow.C112_last_stop
#print axioms Verif.Follow.C112_last_error
#print axioms Verif.Follow.C112_just_late
#print axioms Verif.Follow.C112_whole_steps
#print axioms Verif.Follow.C112_late_violated
#print axioms Verif.Follow.C113_order
#print axioms Verif.Follow.C113_missed
#print axioms Verif.Follow.C113_history
#print axioms Verif.Follow.C113_done
#print axioms Verif.Follow.C113_done_now
#print axioms Verif.Follow.C113_move
#print axioms Verif.Follow.C113_direction
#print axioms Verif.Follow.C113_returns
#print axioms Verif.Follow.C113_brake
#print axioms Verif.Follow.C113_wait
#print axioms Verif.Follow.C113_closed_violated
#print axioms Verif.Follow.C113_short_violated
#print axioms Verif.Follow.C113_pair_violated
#print axioms Verif.Follow.Idle.C114_place
#print axioms Verif.Follow.Idle.C114_end
#print axioms Verif.Follow.Idle.C114_before
#print axioms Verif.Follow.Idle.C114_done
#print axioms Verif.Follow.Idle.C114_refused
#print axioms Verif.Follow.Idle.C114_idle
#print axioms Verif.Follow.Idle.C114_absolute_violated
#print axioms Verif.Follow.Idle.C114_acceleration_violated
#print axioms Verif.Follow.Idle.C114_jump_violated
#print axioms Verif.Follow.Idle.C114_single_violated
#print axioms Verif.Reader.C115_substitute
#print axioms Verif.Reader.C115_done
#print axioms Verif.Reader.C115_text
#print axioms Verif.Reader.C115_returns
#print axioms Verif.Reader.C115_unknown
#print axioms Verif.Reader.C115_no_parameter
#print axioms Verif.Reader.C115_value
#print axioms Verif.Reader.C115_reference
#print axioms Verif.Reader.C115_expression
#print axioms Verif.Reader.C115_missing
#print axioms Verif.Reader.C115_empty_violated
#print axioms Verif.Reader.C115_lines_violated
#print axioms Verif.Reader.C115_ros2_violated
#print axioms Verif.Reader.C115_returns_violated
#print axioms Verif.Reader.C116_elements
#print axioms Verif.Reader.C116_element
#print axioms Verif.Reader.C116_choice
#print axioms Verif.Reader.C116_unknown_violated
#print axioms Verif.Reader.C116_twice_violated
#print axioms Verif.Reader.C116_deterministic_violated
#print axioms Verif.Grid.C117_ends
#print axioms Verif.Grid.C117_touched
#print axioms Verif.Grid.C117_cells
#print axioms Verif.Grid.C117_border_violated
#print axioms Verif.Grid.C118_values
#print axioms Verif.Grid.C118_outline
#print axioms Verif.Grid.C118_between
#print axioms Verif.Grid.C118_inside
#print axioms Verif.Grid.C118_seen
#print axioms Verif.Grid.C118_many
#print axioms Verif.Grid.C118_small_violated
#print axioms Verif.Grid.C118_border_violated
#print axioms Verif.Grid.C119_message
#print axioms Verif.Grid.C119_many
#print axioms Verif.Grid.C119_vertices
#print axioms Verif.Grid.C119_place_partial
#print axioms Verif.Grid.C119_place_violated
#print axioms Verif.Grid.C119_turned_violated
#print axioms Verif.Condition.C12_samples_every_condition
#print axioms Verif.Condition.C12_trigger_value
#print axioms Verif.Grid.C120_hidden
#print axioms Verif.Grid.C120_only
#print axioms Verif.Grid.C120_ends
#print axioms Verif.Grid.C120_surrounded_violated
#print axioms Verif.Behavior.C121_moves_once_partial
#print axioms Verif.Behavior.C121_backward_violated
#print axioms Verif.Behavior.C121_off_lane_violated
#print axioms Verif.Behavior.C121_off_lane_stops
#print axioms Verif.Behavior.C121_backward_partial
#print axioms Verif.Behavior.C122_trajectory
#print axioms Verif.Behavior.C122_trajectory_ends_partial
#print axioms Verif.Behavior.C122_at_once_violated
#print axioms Verif.Behavior.C122_no_lane_change
#print axioms Verif.Behavior.C122_off_lane
#print axioms Verif.Behavior.C127_forced_partial
#print axioms Verif.Behavior.C123_red_light_partial
#print axioms Verif.Behavior.C123_front_violated
#print axioms Verif.Behavior.C123_memory_violated
#print axioms Verif.Behavior.C124_front_partial
#print axioms Verif.Behavior.C124_cut_in_violated
#print axioms Verif.Behavior.C125_stop_line_partial
#print axioms Verif.Behavior.C125_tie_violated
#print axioms Verif.Behavior.C125_creep_violated
#print axioms Verif.Behavior.C126_target_partial
#print axioms Verif.Behavior.C126_yield_violated
#print axioms Verif.Behavior.C127_forced_partial
#print axioms Verif.Behavior.C127_best_effort_partial
#print axioms Verif.Behavior.C127_best_effort_violated
#print axioms Verif.Behavior.C127_one_frame_violated
#print axioms Verif.Behavior.C127_left_over_violated
#print axioms Verif.Distance.C128_longitudinal
#print axioms Verif.Distance.C128_antisymmetric
#print axioms Verif.Distance.C128_additive
#print axioms Verif.Distance.C128_found_partial
#print axioms Verif.Distance.C128_same_lanelet
#print axioms Verif.Distance.C128_nearest
#print axioms Verif.Distance.C128_lateral
#print axioms Verif.Distance.C128_lateral_route
#print axioms Verif.Distance.C128_lateral_within
#print axioms Verif.Distance.C128_lateral_one_way_violated
#print axioms Verif.Distance.C128_opposite_violated
#print axioms Verif.Distance.C128_two_names_violated
#print axioms Verif.Distance.C128_relative
#print axioms Verif.Distance.C129_longitudinal_partial
#print axioms Verif.Distance.C129_overlap_violated
#print axioms Verif.Distance.C129_lateral_partial
#print axioms Verif.Distance.C129_edges_violated
#print axioms Verif.Distance.C129_relative_partial
#print axioms Verif.Condition.C13_active_group
#print axioms Verif.Condition.C13_no_active_group
#print axioms Verif.Distance.C130_relative_partial
#print axioms Verif.Distance.C130_signed
#print axioms Verif.Distance.C130_euclidean
#print axioms Verif.Distance.C130_supported
#print axioms Verif.Distance.C130_absent
#print axioms Verif.Distance.C130_no_route
#print axioms Verif.Distance.C130_entities
#print axioms Verif.Distance.C130_behind_violated
#print axioms Verif.Distance.C130_constructible
#print axioms Verif.Distance.C131_references
#print axioms Verif.Distance.C131_everyone_partial
#print axioms Verif.Distance.C131_any_violated
#print axioms Verif.Distance.C131_overlap_violated
#print axioms Verif.Distance.C132_behind_partial
#print axioms Verif.Distance.C132_position_partial
#print axioms Verif.Distance.C132_defined
#print axioms Verif.Distance.C132_apart_violated
#print axioms Verif.Distance.C132_ahead_violated
#print axioms Verif.Distance.C132_standing_violated
#print axioms Verif.Distance.C132_euclidean_violated
#print axioms Verif.Distance.C132_beside_partial
#print axioms Verif.Distance.C133_stop_line
#print axioms Verif.Distance.C133_lights_partial
#print axioms Verif.Distance.C133_light_violated
#print axioms Verif.Distance.C133_right_of_way
#print axioms Verif.Distance.C133_yield_stop_partial
#print axioms Verif.Distance.C133_no_yield_stop
#print axioms Verif.Distance.C133_yield_violated
#print axioms Verif.Distance.C133_conflict
#print axioms Verif.Distance.C134_front_partial
#print axioms Verif.Distance.C134_distance_partial
#print axioms Verif.Distance.C134_overlap_violated
#print axioms Verif.Distance.C134_tie_violated
#print axioms Verif.Distance.C134_threshold_violated
#print axioms Verif.Distance.C134_trajectory
#print axioms Verif.Distance.C134_first_part
#print axioms Verif.Distance.C135_attained
#print axioms Verif.Distance.C135_straight_partial
#print axioms Verif.Distance.C135_corners
#print axioms Verif.Distance.C135_turn_violated
#print axioms Verif.Command.C136_calls
#print axioms Verif.Command.C136_nothing_lost
#print axioms Verif.Command.C136_parameters
#print axioms Verif.Command.C136_alone
#print axioms Verif.Command.C136_space_violated
#print axioms Verif.Command.C137_program
#print axioms Verif.Command.C137_print
#print axioms Verif.Command.C137_misspelled_violated
#print axioms Verif.Command.C137_faults
#print axioms Verif.Command.C137_fault_level
#print axioms Verif.Command.C137_fault_arguments_violated
#print axioms Verif.Command.C137_undefined
#print axioms Verif.Command.C137_exit
#print axioms Verif.Command.C137_features
#print axioms Verif.Command.C137_walk
#print axioms Verif.Command.C137_state
#print axioms Verif.Command.C137_two
#print axioms Verif.Command.C137_failed_partial
#print axioms Verif.Command.C137_failed_violated
#print axioms Verif.Command.C137_arguments_partial
#print axioms Verif.Command.C137_arguments_violated
#print axioms Verif.Command.C137_long
#print axioms Verif.Command.C138_entity
#print axioms Verif.Command.C138_headings
#print axioms Verif.Command.C138_unreadable
#print axioms Verif.Command.C138_heading_partial
#print axioms Verif.Command.C138_heading_violated
#print axioms Verif.Command.C138_count_violated
#print axioms Verif.Command.C138_topic
#print axioms Verif.Command.C138_messages
#print axioms Verif.Command.C138_empty_violated
#print axioms Verif.Command.C138_text
#print axioms Verif.Sensing.C139_documented
#print axioms Verif.Sensing.C139_ring
#print axioms Verif.Sensing.C139_sizes
#print axioms Verif.Sensing.C139_ratio_violated
#print axioms Verif.Sensing.C139_longitudinal_partial
#print axioms Verif.Sensing.C139_longitudinal_violated
#print axioms Verif.Condition.C14_latches_partial
#print axioms Verif.Condition.C14_true_only_if_entered
#print axioms Verif.Condition.C14_violated
#print axioms Verif.Sensing.C140_wildcards
#print axioms Verif.Sensing.C140_applies
#print axioms Verif.Sensing.C140_first
#print axioms Verif.Sensing.C140_none
#print axioms Verif.Sensing.C140_only
#print axioms Verif.Sensing.C140_dot_violated
#print axioms Verif.Sensing.C141_bin
#print axioms Verif.Sensing.C141_each
#print axioms Verif.Sensing.C141_untouched
#print axioms Verif.Sensing.C141_radial
#print axioms Verif.Sensing.C141_tangential_partial
#print axioms Verif.Sensing.C141_remembered
#print axioms Verif.Sensing.C141_sizes_violated
#print axioms Verif.Sensing.C141_radius_violated
#print axioms Verif.Sensing.C141_beyond_violated
#print axioms Verif.Sensing.C141_ratios_violated
#print axioms Verif.Sensing.C141_tangential_violated
#print axioms Verif.Sensing.C142_sight
#print axioms Verif.Sensing.C142_quiet
#print axioms Verif.Sensing.C142_same_place
#print axioms Verif.Sensing.C142_spot_partial
#print axioms Verif.Sensing.C142_spot_violated
#print axioms Verif.Sensing.C142_flip
#print axioms Verif.Sensing.C142_pivot
#print axioms Verif.Sensing.C142_closest
#print axioms Verif.Sensing.C142_flip4
#print axioms Verif.Sensing.C142_touching
#print axioms Verif.Sensing.C143_angles
#print axioms Verif.Sensing.C143_rays
#print axioms Verif.Sensing.C143_around
#print axioms Verif.Sensing.C143_down
#print axioms Verif.Sensing.C143_points
#print axioms Verif.Sensing.C143_seen
#print axioms Verif.Sensing.C143_phase
#print axioms Verif.Sensing.C143_resolution_violated
#print axioms Verif.Sensing.C143_once_violated
#print axioms Verif.Sensing.C143_ahead_violated
#print axioms Verif.Sensing.C143_phase_violated
#print axioms Verif.Sensing.C144_published
#print axioms Verif.Sensing.C144_quiet
#print axioms Verif.Sensing.C144_noise
#print axioms Verif.Sensing.C144_level_partial
#print axioms Verif.Sensing.C144_slope_violated
#print axioms Verif.Sensing.C144_heading_violated
#print axioms Verif.Behavior.C145_crossing_partial
#print axioms Verif.Behavior.C145_memory_violated
#print axioms Verif.Operator.C146_points
#print axioms Verif.Operator.C146_one
#print axioms Verif.Operator.C146_one_point
#print axioms Verif.Operator.C146_lane_points
#print axioms Verif.Operator.C146_lanelets_partial
#print axioms Verif.Operator.C146_initialized_once
#print axioms Verif.Operator.C146_replan_partial
#print axioms Verif.Operator.C146_unreachable_violated
#print axioms Verif.Operator.C146_off_lane_violated
#print axioms Verif.Operator.C146_off_lane_undefined_violated
#print axioms Verif.Operator.C146_loop_violated
#print axioms Verif.Operator.C146_replan_violated
#print axioms Verif.Operator.C147_trajectory
#print axioms Verif.Operator.C147_trajectory_error
#print axioms Verif.Operator.C147_frame_defined
#print axioms Verif.Operator.C147_kept
#print axioms Verif.Operator.C147_speed_change
#print axioms Verif.Operator.C147_velocity_limit
#print axioms Verif.Operator.C147_respawn
#print axioms Verif.Operator.C147_time_violated
#print axioms Verif.Operator.C148_sent
#print axioms Verif.Operator.C148_refused
#print axioms Verif.Operator.C148_never_twice
#print axioms Verif.Operator.C148_again_violated
#print axioms Verif.Cache.C149_any_schedule
#print axioms Verif.Cache.C149_ends
#print axioms Verif.Cache.C149_last_map
#print axioms Verif.Cache.C149_held_partial
#print axioms Verif.Cache.C149_race_violated
#print axioms Verif.Cache.C149_activate_violated
#print axioms Verif.Cache.C149_stale_violated
#print axioms Verif.Signal.C15_cycle
#print axioms Verif.Signal.C15_evaluation
#print axioms Verif.Signal.C15_reported
#print axioms Verif.Signal.C15_command
#print axioms Verif.Place.C150_lane
#print axioms Verif.Place.C150_set_lane
#print axioms Verif.Place.C150_to_lane
#print axioms Verif.Place.C150_world_partial
#print axioms Verif.Place.C150_world_keeps_lane
#print axioms Verif.Place.C150_world_violated
#print axioms Verif.Place.C150_relative_partial
#print axioms Verif.Place.C150_no_reference
#print axioms Verif.Place.C150_add_world
#print axioms Verif.Place.C150_add_lane
#print axioms Verif.Place.C150_add_relative_partial
#print axioms Verif.Place.C150_add_relative_world_violated
#print axioms Verif.Place.C150_add_relative_object_violated
#print axioms Verif.Place.C150_relative_world_violated
#print axioms Verif.Place.C150_relative_object_violated
#print axioms Verif.Place.C151_sound
#print axioms Verif.Place.C151_added
#print axioms Verif.Place.C151_report
#print axioms Verif.Place.C151_guard
#print axioms Verif.Place.C151_guard_violated
#print axioms Verif.Lanes.C152_resampled
#print axioms Verif.Lanes.C152_count
#print axioms Verif.Lanes.C152_centerline_partial
#print axioms Verif.Lanes.C152_shape_partial
#print axioms Verif.Lanes.C152_custom
#print axioms Verif.Lanes.C152_third
#print axioms Verif.Lanes.C152_repeated_violated
#print axioms Verif.Lanes.C152_point_violated
#print axioms Verif.Lanes.C153_relative_partial
#print axioms Verif.Lanes.C153_refused
#print axioms Verif.Lanes.C153_wrapped_violated
#print axioms Verif.Lanes.C153_pedestrian_violated
#print axioms Verif.Lanes.C153_ego
#print axioms Verif.Lanes.C153_direction_partial
#print axioms Verif.Lanes.C153_direction_violated
#print axioms Verif.Lanes.C153_unknown
#print axioms Verif.Lanes.C153_count
#print axioms Verif.Lanes.C153_count_none
#print axioms Verif.Lanes.C154_place
#print axioms Verif.Lanes.C154_none
#print axioms Verif.Lanes.C154_bound
#print axioms Verif.Lanes.C154_bound_error
#print axioms Verif.Lanes.C154_offset_violated
#print axioms Verif.Lanes.C155_nearby_sound
#print axioms Verif.Lanes.C155_nearby_partial
#print axioms Verif.Lanes.C155_order
#print axioms Verif.Lanes.C155_nearby_violated
#print axioms Verif.Lanes.C155_subtype_violated
#print axioms Verif.Lanes.C155_yaw_partial
#print axioms Verif.Lanes.C155_yaw_violated
#print axioms Verif.Lanes.C155_yaw_none
#print axioms Verif.Lanes.C155_speed
#print axioms Verif.Lanes.C155_speed_none
#print axioms Verif.Lanes.C155_points
#print axioms Verif.Lanes.C155_length
#print axioms Verif.Lanes.C155_union
#print axioms Verif.Lanes.C156_bulb
#print axioms Verif.Lanes.C156_bulb_found
#print axioms Verif.Lanes.C156_bulb_none
#print axioms Verif.Lanes.C156_guess
#print axioms Verif.Lanes.C156_stop_lines
#print axioms Verif.Lanes.C156_stop_line_points
#print axioms Verif.Lanes.C156_listed
#print axioms Verif.Lanes.C156_together_violated
#print axioms Verif.Monitor.C157_entries
#print axioms Verif.Monitor.C157_good_partial
#print axioms Verif.Monitor.C157_clock
#print axioms Verif.Monitor.C157_clock_violated
#print axioms Verif.Monitor.C157_ended_violated
#print axioms Verif.Monitor.C157_restored_partial
#print axioms Verif.Monitor.C157_overridden
#print axioms Verif.Monitor.C157_restored_violated
#print axioms Verif.Monitor.C158_stuck
#print axioms Verif.Monitor.C158_deadlock_violated
#print axioms Verif.Monitor.C158_ends_partial
#print axioms Verif.Monitor.C158_order
#print axioms Verif.Init.C159_order_partial
#print axioms Verif.Init.C159_once_partial
#print axioms Verif.Init.C159_each_frame_partial
#print axioms Verif.Init.C159_complete_partial
#print axioms Verif.Init.C159_environment_violated
#print axioms Verif.Init.C159_order_violated
#print axioms Verif.Init.C159_ignored_violated
#print axioms Verif.Signal.C16_begins_partial
#print axioms Verif.Signal.C16_not_before
#print axioms Verif.Signal.C16_violated
#print axioms Verif.Pedestrian.C160_front
#print axioms Verif.Pedestrian.C160_same_place_violated
#print axioms Verif.Pedestrian.C160_stops
#print axioms Verif.Pedestrian.C160_blind
#print axioms Verif.Pedestrian.C160_waypoints
#print axioms Verif.Pedestrian.C160_modes
#print axioms Verif.Pedestrian.C160_area_violated
#print axioms Verif.Pedestrian.C160_narrow_violated
#print axioms Verif.Pedestrian.C161_straight_partial
#print axioms Verif.Pedestrian.C161_line_partial
#print axioms Verif.Pedestrian.C161_end
#print axioms Verif.Pedestrian.C161_jump_violated
#print axioms Verif.Pedestrian.C161_global
#print axioms Verif.Pedestrian.C161_turning
#print axioms Verif.Pedestrian.C162_decision
#print axioms Verif.Pedestrian.C162_others
#print axioms Verif.Pedestrian.C162_blind
#print axioms Verif.Pedestrian.C162_off
#print axioms Verif.Pedestrian.C162_ahead_violated
#print axioms Verif.Pedestrian.C162_behind_violated
#print axioms Verif.Pedestrian.C162_north_partial
#print axioms Verif.Pedestrian.C163_horizon
#print axioms Verif.Pedestrian.C163_waypoints
#print axioms Verif.RandomTest.C164_route_partial
#print axioms Verif.RandomTest.C164_npcs_partial
#print axioms Verif.RandomTest.C164_empty
#print axioms Verif.RandomTest.C164_defined
#print axioms Verif.RandomTest.C164_behind_violated
#print axioms Verif.RandomTest.C164_ego_violated
#print axioms Verif.RandomTest.C165_near_partial
#print axioms Verif.RandomTest.C165_found
#print axioms Verif.RandomTest.C165_ends
#print axioms Verif.RandomTest.C165_refused
#print axioms Verif.RandomTest.C165_ring_violated
#print axioms Verif.RandomTest.C165_short_violated
#print axioms Verif.RandomTest.C166_replay
#print axioms Verif.RandomTest.C166_tests
#print axioms Verif.RandomTest.C166_goal
#print axioms Verif.RandomTest.C166_fixed_violated
#print axioms Verif.RandomTest.C166_none_violated
#print axioms Verif.RandomTest.C166_one_violated
#print axioms Verif.RandomTest.C167_pass_partial
#print axioms Verif.RandomTest.C167_kept
#print axioms Verif.RandomTest.C167_over
#print axioms Verif.RandomTest.C167_timeout
#print axioms Verif.RandomTest.C167_ends_partial
#print axioms Verif.RandomTest.C167_written
#print axioms Verif.RandomTest.C167_order
#print axioms Verif.RandomTest.C167_next
#print axioms Verif.RandomTest.C167_missing
#print axioms Verif.RandomTest.C167_thrown
#print axioms Verif.RandomTest.C167_setup
#print axioms Verif.RandomTest.C167_silent_violated
#print axioms Verif.RandomTest.C167_waits_violated
#print axioms Verif.RandomTest.C167_refused_violated
#print axioms Verif.RandomTest.C168_collision
#print axioms Verif.RandomTest.C168_standstill_partial
#print axioms Verif.RandomTest.C168_others
#print axioms Verif.RandomTest.C168_never_violated
#print axioms Verif.RandomTest.C168_backwards_violated
#print axioms Verif.RandomTest.C168_before_violated
#print axioms Verif.Orca.C169_speed
#print axioms Verif.Orca.C169_returns
#print axioms Verif.Orca.C169_best_partial
#print axioms Verif.Orca.C169_aligned_partial
#print axioms Verif.Orca.C169_parallel_violated
#print axioms Verif.Orca.C169_thrown_violated
#print axioms Verif.Signal.C17_no_leak
#print axioms Verif.Orca.C170_least_partial
#print axioms Verif.Orca.C171_apart_partial
#print axioms Verif.Orca.C171_parted_partial
#print axioms Verif.Orca.C171_end_not_avoided
#print axioms Verif.Orca.C171_end_violated
#print axioms Verif.Orca.C171_across_violated
#print axioms Verif.Orca.C171_same_violated
#print axioms Verif.Orca.C172_ignored
#print axioms Verif.Orca.C172_moves_partial
#print axioms Verif.Orca.C172_stands_partial
#print axioms Verif.Orca.C172_free
#print axioms Verif.Orca.C172_pair_partial
#print axioms Verif.Orca.C172_unlimited_violated
#print axioms Verif.Orca.C173_goal
#print axioms Verif.Orca.C173_follow_lane
#print axioms Verif.Orca.C173_lost_violated
#print axioms Verif.Orca.C173_other_violated
#print axioms Verif.Orca.C173_back_violated
#print axioms Verif.Orca.C174_follow
#print axioms Verif.Orca.C174_goes_on
#print axioms Verif.Orca.C174_done
#print axioms Verif.Orca.C174_wait
#print axioms Verif.Orca.C174_speed_partial
#print axioms Verif.Orca.C174_endless_violated
#print axioms Verif.Orca.C174_replace_violated
#print axioms Verif.Orca.C174_last_violated
#print axioms Verif.Orca.C174_untimed_violated
#print axioms Verif.Modify.C175_steps
#print axioms Verif.Modify.C175_zero
#print axioms Verif.Modify.C175_complete
#print axioms Verif.Modify.C175_bounded
#print axioms Verif.Modify.C175_exact_partial
#print axioms Verif.Modify.C175_past_violated
#print axioms Verif.Modify.C176_files
#print axioms Verif.Modify.C176_plain
#print axioms Verif.Modify.C176_none_violated
#print axioms Verif.Modify.C177_words_partial
#print axioms Verif.Modify.C177_unchanged
#print axioms Verif.Modify.C177_again_violated
#print axioms Verif.Modify.C177_within_violated
#print axioms Verif.Modify.C178_valid
#print axioms Verif.Modify.C178_exits
#print axioms Verif.Modify.C178_silent_violated
#print axioms Verif.Modify.C179_entries
#print axioms Verif.Modify.C179_items
#print axioms Verif.Modify.C179_text
#print axioms Verif.Modify.C179_total
#print axioms Verif.Modify.C179_booleans
#print axioms Verif.Modify.C179_number_violated
#print axioms Verif.Signal.C18_predictions_partial
#print axioms Verif.Signal.C18_violated
#print axioms Verif.Signal.C18_short_phases_not_predicted
#print axioms Verif.Catalog.C180_entry
#print axioms Verif.Catalog.C180_accepts
#print axioms Verif.Catalog.C180_missing
#print axioms Verif.Catalog.C180_many
#print axioms Verif.Catalog.C181_from_file
#print axioms Verif.Catalog.C181_found_partial
#print axioms Verif.Catalog.C181_order_partial
#print axioms Verif.Catalog.C181_read
#print axioms Verif.Catalog.C181_yaml
#print axioms Verif.Catalog.C181_errors
#print axioms Verif.Catalog.C181_locations_partial
#print axioms Verif.Catalog.C181_order_violated
#print axioms Verif.Catalog.C181_invalid_violated
#print axioms Verif.Catalog.C181_locations_violated
#print axioms Verif.Catalog.C182_values_partial
#print axioms Verif.Catalog.C182_ignored_violated
#print axioms Verif.Catalog.C182_assigned_violated
#print axioms Verif.Catalog.C183_kind
#print axioms Verif.Catalog.C183_loud_partial
#print axioms Verif.Catalog.C183_unsupported
#print axioms Verif.Catalog.C183_silent_violated
#print axioms Verif.Select.C184_read
#print axioms Verif.Select.C184_known
#print axioms Verif.Select.C184_object_partial
#print axioms Verif.Select.C184_bytype_partial
#print axioms Verif.Select.C184_selection_partial
#print axioms Verif.Select.C184_twice_violated
#print axioms Verif.Select.C185_objects
#print axioms Verif.Select.C185_declared
#print axioms Verif.Select.C185_types_partial
#print axioms Verif.Select.C185_refs_partial
#print axioms Verif.Select.C186_object
#print axioms Verif.Select.C186_type
#print axioms Verif.Select.C186_collides_partial
#print axioms Verif.Select.C186_read
#print axioms Verif.Select.C186_nothing_violated
#print axioms Verif.Select.C186_selection_violated
#print axioms Verif.Enum.C187_literal_partial
#print axioms Verif.Enum.C187_parameter
#print axioms Verif.Enum.C187_unsupported
#print axioms Verif.Enum.C187_empty
#print axioms Verif.Enum.C187_empty_violated
#print axioms Verif.Enum.C187_refused_violated
#print axioms Verif.Enum.C188_round_trip
#print axioms Verif.Enum.C188_apart
#print axioms Verif.Request.C189_accepted
#print axioms Verif.Request.C189_refused_partial
#print axioms Verif.Request.C189_told_partial
#print axioms Verif.Request.C189_last_partial
#print axioms Verif.Request.C189_route
#print axioms Verif.Request.C189_refused_violated
#print axioms Verif.Request.C189_off_lane_violated
#print axioms Verif.Request.C189_silent_violated
#print axioms Verif.Request.C189_pedestrian_goals_violated
#print axioms Verif.Light.C19_identity
#print axioms Verif.Light.C19_emplace
#print axioms Verif.Request.C190_set
#print axioms Verif.Request.C190_refused
#print axioms Verif.Request.C190_kept
#print axioms Verif.Request.C190_last
#print axioms Verif.Request.C190_never_negative
#print axioms Verif.Request.C190_defaults
#print axioms Verif.Request.C190_reset
#print axioms Verif.Request.C190_vehicle
#print axioms Verif.Request.C190_within
#print axioms Verif.Request.C190_others
#print axioms Verif.Request.C190_ego_violated
#print axioms Verif.Request.C190_misc_violated
#print axioms Verif.Request.C191_request
#print axioms Verif.Request.C191_pace
#print axioms Verif.Request.C191_gentle
#print axioms Verif.Request.C191_error
#print axioms Verif.Request.C191_over
#print axioms Verif.Request.C191_in_step
#print axioms Verif.Request.C191_forwards_partial
#print axioms Verif.Request.C191_backwards_violated
#print axioms Verif.Request.C191_standing_violated
#print axioms Verif.Request.C191_final_speed_violated
#print axioms Verif.Request.C192_complains
#print axioms Verif.Request.C192_names
#print axioms Verif.Request.C192_silent
#print axioms Verif.Request.C192_first
#print axioms Verif.Request.C192_end_violated
#print axioms Verif.Report.C193_totals
#print axioms Verif.Report.C193_suites
#print axioms Verif.Report.C193_cases
#print axioms Verif.Report.C193_passed
#print axioms Verif.Report.C193_name
#print axioms Verif.Report.C193_same_name_violated
#print axioms Verif.Report.C194_waits
#print axioms Verif.Report.C194_starts
#print axioms Verif.Report.C194_at_once
#print axioms Verif.Report.C194_zero_violated
#print axioms Verif.Report.C195_there
#print axioms Verif.Report.C195_says
#print axioms Verif.Report.C195_written
#print axioms Verif.Report.C195_mean
#print axioms Verif.Report.C195_variance
#print axioms Verif.Report.C195_stale_violated
#print axioms Verif.Report.C196_period_partial
#print axioms Verif.Report.C196_exact
#print axioms Verif.Report.C196_drift_violated
#print axioms Verif.Report.C196_fast_violated
#print axioms Verif.Distribution.C197_scenario
#print axioms Verif.Distribution.C197_one
#print axioms Verif.Distribution.C197_element_partial
#print axioms Verif.Distribution.C197_rejected_violated
#print axioms Verif.Distribution.C197_load_violated
#print axioms Verif.Distribution.C197_handed_violated
#print axioms Verif.Distribution.C198_set
#print axioms Verif.Distribution.C198_user
#print axioms Verif.Distribution.C198_poisson_partial
#print axioms Verif.Distribution.C198_variance_violated
#print axioms Verif.Distribution.C198_range_violated
#print axioms Verif.Distribution.C198_uniform_violated
#print axioms Verif.Distribution.C198_histogram_violated
#print axioms Verif.Distribution.C198_bins_violated
#print axioms Verif.Distribution.C198_logNormal_violated
#print axioms Verif.Distribution.C199_read_partial
#print axioms Verif.Distribution.C199_seed_partial
#print axioms Verif.Distribution.C199_others_violated
#print axioms Verif.Distribution.C199_seed_violated
#print axioms Verif.Light.C20_bulb
#print axioms Verif.Light.C20_names
#print axioms Verif.Light.C20_light
#print axioms Verif.Distribution.C200_read_partial
#print axioms Verif.Distribution.C200_step_violated
#print axioms Verif.Distribution.C200_found_violated
#print axioms Verif.Literal.C201_integer
#print axioms Verif.Literal.C201_unsigned_partial
#print axioms Verif.Literal.C201_round_trip
#print axioms Verif.Literal.C201_negative_violated
#print axioms Verif.Literal.C202_attribute
#print axioms Verif.Literal.C202_infinity
#print axioms Verif.Literal.C202_figures_violated
#print axioms Verif.Literal.C202_rest_violated
#print axioms Verif.Literal.C203_value_partial
#print axioms Verif.Literal.C203_declared
#print axioms Verif.Literal.C203_all
#print axioms Verif.Literal.C203_names_violated
#print axioms Verif.Literal.C203_date_violated
#print axioms Verif.Routing.C204_property
#print axioms Verif.Routing.C204_parameter
#print axioms Verif.Routing.C204_lanes
#print axioms Verif.Routing.C204_error
#print axioms Verif.Routing.C204_each
#print axioms Verif.Routing.C204_silent_violated
#print axioms Verif.Routing.C204_ambiguous_violated
#print axioms Verif.Routing.C205_actors
#print axioms Verif.Routing.C205_route_partial
#print axioms Verif.Routing.C205_closed_violated
#print axioms Verif.Routing.C206_lane
#print axioms Verif.Routing.C206_map
#print axioms Verif.Routing.C206_offLane_violated
#print axioms Verif.Routing.C206_order_violated
#print axioms Verif.Contact.C207_contact_partial
#print axioms Verif.Contact.C207_symmetric
#print axioms Verif.Contact.C207_tilted_violated
#print axioms Verif.Contact.C208_crossing_partial
#print axioms Verif.Contact.C208_error
#print axioms Verif.Contact.C208_range_violated
#print axioms Verif.Contact.C209_level_partial
#print axioms Verif.Contact.C209_empty
#print axioms Verif.Contact.C209_whole
#print axioms Verif.Contact.C209_two_violated
#print axioms Verif.Contact.C209_between_violated
#print axioms Verif.Contact.C209_slope_violated
#print axioms Verif.Light.C21_replaces_partial
#print axioms Verif.Light.C21_add_clear
#print axioms Verif.Light.C21_v2i
#print axioms Verif.Light.C21_detected
#print axioms Verif.Light.C21_rejects
#print axioms Verif.Light.C21_violated
#print axioms Verif.Contact.C210_seen_partial
#print axioms Verif.Contact.C210_found
#print axioms Verif.Contact.C210_order
#print axioms Verif.Contact.C210_error
#print axioms Verif.Contact.C210_altitude_violated
#print axioms Verif.Contact.C210_side_violated
#print axioms Verif.Maps.C211_directory_partial
#print axioms Verif.Maps.C211_order
#print axioms Verif.Maps.C211_refusal
#print axioms Verif.Maps.C211_named_partial
#print axioms Verif.Maps.C211_whole
#print axioms Verif.Maps.C211_first_violated
#print axioms Verif.Maps.C211_bare_violated
#print axioms Verif.Noise.C212_velocity
#print axioms Verif.Noise.C212_silent
#print axioms Verif.Noise.C213_odometry_partial
#print axioms Verif.Noise.C213_position
#print axioms Verif.Noise.C213_silent
#print axioms Verif.Noise.C213_yaw
#print axioms Verif.Noise.C213_roll
#print axioms Verif.Noise.C213_roll_violated
#print axioms Verif.Noise.C214_pose_partial
#print axioms Verif.Noise.C214_multiplicative_violated
#print axioms Verif.Noise.C215_seed_partial
#print axioms Verif.Noise.C215_range_violated
#print axioms Verif.Noise.C216_entity
#print axioms Verif.Noise.C216_legacy_partial
#print axioms Verif.Noise.C216_override_partial
#print axioms Verif.Noise.C216_gravity_violated
#print axioms Verif.Noise.C216_heading_violated
#print axioms Verif.Matching.C217_angles
#print axioms Verif.Matching.C218_place
#print axioms Verif.Matching.C218_no_place
#print axioms Verif.Matching.C218_beside_partial
#print axioms Verif.Matching.C219_back
#print axioms Verif.Matching.C219_skew_violated
#print axioms Verif.Matching.C219_pitch_violated
#print axioms Verif.Light.C22_set_clear_partial
#print axioms Verif.Light.C22_add_partial
#print axioms Verif.Light.C22_history_partial
#print axioms Verif.Light.C22_only_enabled
#print axioms Verif.Light.C22_feature
#print axioms Verif.Light.C22_violated
#print axioms Verif.Matching.C220_closest
#print axioms Verif.Matching.C220_all
#print axioms Verif.Matching.C220_order
#print axioms Verif.Matching.C220_outline_partial
#print axioms Verif.Matching.C220_outline_violated
#print axioms Verif.Matching.C221_route
#print axioms Verif.Matching.C221_pedestrian
#print axioms Verif.Matching.C221_all
#print axioms Verif.Matching.C221_alternative
#print axioms Verif.Matching.C222_canonical
#print axioms Verif.Matching.C222_slope_partial
#print axioms Verif.Matching.C222_align
#print axioms Verif.Matching.C222_reverse_violated
#print axioms Verif.Pace.C223_time_partial
#print axioms Verif.Pace.C223_superseded_violated
#print axioms Verif.Pace.C223_auto_violated
#print axioms Verif.Pace.C224_up
#print axioms Verif.Pace.C224_down_partial
#print axioms Verif.Pace.C224_limit_up
#print axioms Verif.Pace.C224_limit_down
#print axioms Verif.Pace.C224_rate_violated
#print axioms Verif.Pace.C225_step_partial
#print axioms Verif.Pace.C225_no_time
#print axioms Verif.Pace.C225_no_constraint_violated
#print axioms Verif.Pace.C226_missing
#print axioms Verif.Pace.C226_continuous_time
#print axioms Verif.Pace.C226_time
#print axioms Verif.Pace.C226_own
#print axioms Verif.Pace.C226_step
#print axioms Verif.Pace.C226_unconstrained
#print axioms Verif.Pace.C226_follows_partial
#print axioms Verif.Pace.C226_first_frame_violated
#print axioms Verif.Pace.C226_disappears_violated
#print axioms Verif.Pace.C227_restored_partial
#print axioms Verif.Pace.C227_set_before_violated
#print axioms Verif.Pace.C227_superseded_violated
#print axioms Verif.Pace.C228_kept_partial
#print axioms Verif.Pace.C228_time_violated
#print axioms Verif.Pace.C228_first_frame_violated
#print axioms Verif.Process.C229_asked
#print axioms Verif.Process.C229_ended_partial
#print axioms Verif.Process.C229_finishes
#print axioms Verif.Process.C229_killed_partial
#print axioms Verif.Process.C229_hangs_violated
#print axioms Verif.Process.C229_interrupted_violated
#print axioms Verif.Process.C229_left_violated
#print axioms Verif.Process.C229_stale_violated
#print axioms Verif.Scope.C23_found
#print axioms Verif.Scope.C23_ambiguous
#print axioms Verif.Scope.C23_missing
#print axioms Verif.Scope.C23_scopes
#print axioms Verif.Process.C230_sent_partial
#print axioms Verif.Process.C230_others_partial
#print axioms Verif.Process.C230_broadcast_violated
#print axioms Verif.Process.C231_noticed
#print axioms Verif.Process.C231_running
#print axioms Verif.Process.C231_once
#print axioms Verif.Process.C232_ended_partial
#print axioms Verif.Process.C232_shutdown_violated
#print axioms Verif.Process.C233_waited_partial
#print axioms Verif.Process.C233_returns
#print axioms Verif.Process.C233_stays
#print axioms Verif.Process.C233_interrupted_violated
#print axioms Verif.Markers.C234_shown
#print axioms Verif.Markers.C235_gone_partial
#print axioms Verif.Markers.C235_later_partial
#print axioms Verif.Markers.C235_gone_violated
#print axioms Verif.Markers.C236_goals_partial
#print axioms Verif.Markers.C236_fresh
#print axioms Verif.Markers.C236_next_goal_violated
#print axioms Verif.Markers.C237_boxes
#print axioms Verif.Markers.C237_paths
#print axioms Verif.Markers.C238_edges
#print axioms Verif.Markers.C238_once
#print axioms Verif.Lamps.C239_condition
#print axioms Verif.Lamps.C239_words
#print axioms Verif.Lamps.C239_stop
#print axioms Verif.Lamps.C239_refused
#print axioms Verif.Lamps.C239_set_partial
#print axioms Verif.Lamps.C239_none_violated
#print axioms Verif.Lamps.C239_list_violated
#print axioms Verif.Expr.C24_grammar
#print axioms Verif.Expr.C24_precedence
#print axioms Verif.Expr.C24_returns
#print axioms Verif.Expr.C24_only_expressions
#print axioms Verif.Expr.C24_typing_partial
#print axioms Verif.Expr.C24_error_propagates
#print axioms Verif.Expr.C24_integers
#print axioms Verif.Expr.C24_promotions
#print axioms Verif.Expr.C24_conversions
#print axioms Verif.Expr.C24_logic
#print axioms Verif.Expr.C24_minus
#print axioms Verif.Expr.C24_functions
#print axioms Verif.Expr.C24_doubles
#print axioms Verif.Expr.C24_violated
#print axioms Verif.Expr.C24_sqrt_not_real
#print axioms Verif.Expr.C24_unsigned_wraps_violated
#print axioms Verif.Lamps.C240_bulbs
#print axioms Verif.Lamps.C240_confidence
#print axioms Verif.Lamps.C240_message
#print axioms Verif.Lamps.C240_look_partial
#print axioms Verif.Lamps.C240_look_violated
#print axioms Verif.Lamps.C241_shown_partial
#print axioms Verif.Lamps.C241_known
#print axioms Verif.Lamps.C241_ids_violated
#print axioms Verif.Lamps.C241_kinds_violated
#print axioms Verif.Lamps.C242_rate
#print axioms Verif.Lamps.C242_publish
#print axioms Verif.Lamps.C242_bad
#print axioms Verif.Reach.C243_frames
#print axioms Verif.Reach.C243_none
#print axioms Verif.Reach.C243_ego_partial
#print axioms Verif.Reach.C243_follows_violated
#print axioms Verif.Reach.C243_late_violated
#print axioms Verif.Reach.C244_on
#print axioms Verif.Reach.C244_near
#print axioms Verif.Reach.C244_before
#print axioms Verif.Reach.C244_after
#print axioms Verif.Reach.C244_beside
#print axioms Verif.Reach.C244_tolerance
#print axioms Verif.Reach.C245_end
#print axioms Verif.Reach.C245_stopped
#print axioms Verif.Reach.C245_stays
#print axioms Verif.Reach.C245_on_road_partial
#print axioms Verif.Reach.C245_moved_partial
#print axioms Verif.Reach.C246_measured_partial
#print axioms Verif.Reach.C246_time_violated
#print axioms Verif.Release.C247_order
#print axioms Verif.Release.C247_v2i
#print axioms Verif.Release.C247_detector
#print axioms Verif.Release.C247_headers
#print axioms Verif.Release.C247_undated
#print axioms Verif.Release.C248_lights_partial
#print axioms Verif.Release.C248_dated_partial
#print axioms Verif.Release.C248_older_violated
#print axioms Verif.Release.C248_foreign_violated
#print axioms Verif.Release.C249_convert
#print axioms Verif.Release.C249_one
#print axioms Verif.Release.C249_date
#print axioms Verif.Release.C249_latest
#print axioms Verif.Registry.C25_registry
#print axioms Verif.Registry.C25_refused_changes_nothing
#print axioms Verif.Registry.C25_standalone
#print axioms Verif.Registry.C25_after_close_violated
#print axioms Verif.Release.C250_scenario
#print axioms Verif.Release.C250_vehicle
#print axioms Verif.Release.C250_given
#print axioms Verif.Release.C250_lights
#print axioms Verif.Release.C250_launch
#print axioms Verif.Spawn.C251_world
#print axioms Verif.Spawn.C251_lane
#print axioms Verif.Spawn.C251_usable
#print axioms Verif.Spawn.C251_altitude
#print axioms Verif.Spawn.C251_error
#print axioms Verif.Spawn.C252_path
#print axioms Verif.Spawn.C252_all
#print axioms Verif.Spawn.C252_filter
#print axioms Verif.Spawn.C252_right
#print axioms Verif.Spawn.C252_rights
#print axioms Verif.Spawn.C252_conflicts
#print axioms Verif.Spawn.C252_any
#print axioms Verif.Spawn.C253_least
#print axioms Verif.Spawn.C253_error
#print axioms Verif.Spawn.C254_first_partial
#print axioms Verif.Spawn.C254_stale
#print axioms Verif.Spawn.C254_second_violated
#print axioms Verif.Registry.C26_pairs
#print axioms Verif.Job.C27_calls
#print axioms Verif.Job.C27_at_most_one
#print axioms Verif.Job.C27_append
#print axioms Verif.Job.C27_append_effects
#print axioms Verif.Job.C27_update
#print axioms Verif.Job.C27_update_effects
#print axioms Verif.Job.C27_duration
#print axioms Verif.Entity.C28_frames_partial
#print axioms Verif.Entity.C28_relative_partial
#print axioms Verif.Entity.C28_at_once_partial
#print axioms Verif.Entity.C28_violated
#print axioms Verif.Entity.C28_ignored_violated
#print axioms Verif.Entity.C29_partial
#print axioms Verif.Entity.C29_monotone
#print axioms Verif.Entity.C29_violated
#print axioms Verif.Clock.C30_simulation_time
#print axioms Verif.Clock.C30_before_start
#print axioms Verif.Clock.C30_after_start
#print axioms Verif.Clock.C30_start_twice
#print axioms Verif.Clock.C30_step_mirrored
#print axioms Verif.Clock.C30_exact
#print axioms Verif.Traffic.C31_spawned
#print axioms Verif.Traffic.C31_count
#print axioms Verif.Traffic.C31_schedule_independent
#print axioms Verif.Traffic.C31_start
#print axioms Verif.Traffic.C31_terminates
#print axioms Verif.Traffic.C31_names_distinct
#print axioms Verif.Traffic.C31_negative_rate_violated
#print axioms Verif.Traffic.C32_sink
#print axioms Verif.Traffic.C32_sinks
#print axioms Verif.Speed.C33_speed_limit
#print axioms Verif.Speed.C33_no_overshoot
#print axioms Verif.Speed.C33_acceleration_partial
#print axioms Verif.Speed.C33_jerk_partial
#print axioms Verif.Speed.C33_jerk_violated
#print axioms Verif.Speed.C33_beyond_limit_violated
#print axioms Verif.Speed.C34_converges
#print axioms Verif.Route.C35_suffix
#print axioms Verif.Route.C35_dropped
#print axioms Verif.Route.C35_whole
#print axioms Verif.Route.C35_cancelled
#print axioms Verif.TaskQueue.C36_order
#print axioms Verif.TaskQueue.C36_front_defined
#print axioms Verif.TaskQueue.C36_progress
#print axioms Verif.TaskQueue.C37_nothing_started
#print axioms Verif.TaskQueue.C37_recorded
#print axioms Verif.TaskQueue.C37_reported
#print axioms Verif.TaskQueue.C38_empty_means_finished
#print axioms Verif.TaskQueue.C38_failed_never_empty
#print axioms Verif.Autoware.C39_driving
#print axioms Verif.Autoware.C39_initializing
#print axioms Verif.Autoware.C39_others
#print axioms Verif.Autoware.C40_retries
#print axioms Verif.Autoware.C40_available
#print axioms Verif.Autoware.C40_all_results
#print axioms Verif.Autoware.C40_terminates
#print axioms Verif.Detection.C41_delay_queue
#print axioms Verif.Detection.C41_rate
#print axioms Verif.Detection.C41_exact
#print axioms Verif.Detection.C42_only_in_range
#print axioms Verif.Detection.C42_all_in_range
#print axioms Verif.Detection.C42_all_published_partial
#print axioms Verif.Detection.C42_known_published_partial
#print axioms Verif.Detection.C42_first_frame_violated
#print axioms Verif.Interpreter.C43_classification
#print axioms Verif.Interpreter.C43_defined
#print axioms Verif.Interpreter.C43_at_most_one
#print axioms Verif.Interpreter.C43_one_verdict_partial
#print axioms Verif.Interpreter.C43_timeout_violated
#print axioms Verif.Preprocessor.C44_queue_partial
#print axioms Verif.Preprocessor.C44_after_failure_partial
#print axioms Verif.Preprocessor.C44_answer
#print axioms Verif.Preprocessor.C44_no_output
#print axioms Verif.Preprocessor.C44_violated
#print axioms Verif.Preprocessor.C44_distribution_violated
#print axioms Verif.Condition.C45_rule
#print axioms Verif.Condition.C45_examined
#print axioms Verif.Condition.C45_read
#print axioms Verif.Parameter.C46_integer
#print axioms Verif.Parameter.C46_other_types
#print axioms Verif.Parameter.C46_unsigned_partial
#print axioms Verif.Parameter.C46_short_partial
#print axioms Verif.Parameter.C46_operations
#print axioms Verif.Parameter.C46_rules
#print axioms Verif.Parameter.C46_meaning
#print axioms Verif.Parameter.C46_measured_partial
#print axioms Verif.Parameter.C46_unsigned_violated
#print axioms Verif.Parameter.C46_large_integer_violated
#print axioms Verif.Parameter.C46_measured_violated
#print axioms Verif.Scope.C47_relative_partial
#print axioms Verif.Scope.C47_absolute_partial
#print axioms Verif.Scope.C47_absolute_errors
#print axioms Verif.Scope.C47_relative_ambiguous
#print axioms Verif.Scope.C47_violated
#print axioms Verif.Registry.C48_mirror
#print axioms Verif.Registry.C48_standalone_violated
#print axioms Verif.Registry.C49_others_partial
#print axioms Verif.Registry.C49_violated
#print axioms Verif.Traffic.C50_area_partial
#print axioms Verif.Traffic.C50_violated
#print axioms Verif.Autoware.C51_engage_partial
#print axioms Verif.Autoware.C51_plan_partial
#print axioms Verif.Autoware.C51_initialize_partial
#print axioms Verif.Autoware.C51_engage_completes
#print axioms Verif.Autoware.C51_plan_completes
#print axioms Verif.Autoware.C51_initialize_completes
#print axioms Verif.Autoware.C51_refused
#print axioms Verif.Autoware.C51_wrong_state
#print axioms Verif.Autoware.C51_wait_terminates
#print axioms Verif.Autoware.C51_engage_violated
#print axioms Verif.Autoware.C51_plan_violated
#print axioms Verif.Detection.C52_plane_partial
#print axioms Verif.Detection.C52_violated
#print axioms Verif.Detection.C53_range_partial
#print axioms Verif.Detection.C53_violated
#print axioms Verif.Detection.C53_zero_violated
#print axioms Verif.Preprocessor.C54_overrides
#print axioms Verif.Interpreter.C55_checker_partial
#print axioms Verif.Interpreter.C55_nothing_recorded
#print axioms Verif.Interpreter.C55_timeout_violated
#print axioms Verif.Interpreter.C55_invalid_violated
#print axioms Verif.Interpreter.C55_stale_violated
#print axioms Verif.Parameter.C56_constraints
#print axioms Verif.Speed.C57_terminates_partial
#print axioms Verif.Speed.C57_error_partial
#print axioms Verif.Speed.C57_distance_violated
#print axioms Verif.Speed.C57_no_braking_violated
#print axioms Verif.Speed.C58_duration_partial
#print axioms Verif.Speed.C58_violated
#print axioms Verif.Speed.C59_time_constraint_partial
#print axioms Verif.Speed.C59_braking_violated
#print axioms Verif.Lanelet.C60_canonical
#print axioms Verif.Lanelet.C60_terminates
#print axioms Verif.Lanelet.C60_idempotent
#print axioms Verif.Lanelet.C60_route_partial
#print axioms Verif.Lanelet.C60_route_violated
#print axioms Verif.Lanelet.C61_along
#print axioms Verif.Lanelet.C61_terminates
#print axioms Verif.Lanelet.C61_route_partial
#print axioms Verif.Lanelet.C62_following
#print axioms Verif.Lanelet.C62_previous
#print axioms Verif.Lanelet.C62_terminates
#print axioms Verif.Lanelet.C62_route
#print axioms Verif.Lanelet.C62_route_error
#print axioms Verif.Lanelet.C63_alternatives_partial
#print axioms Verif.Lanelet.C63_complete
#print axioms Verif.Lanelet.C63_terminates
#print axioms Verif.Lanelet.C63_violated
#print axioms Verif.Route.C64_passed_partial
#print axioms Verif.Route.C64_second_violated
#print axioms Verif.Route.C64_ahead_violated
#print axioms Verif.Route.C65_toward_waypoint_partial
#print axioms Verif.Route.C65_new_waypoints_violated
#print axioms Verif.Route.C65_second_waypoint_violated
#print axioms Verif.Route.C66_graph_partial
#print axioms Verif.Route.C66_violated
#print axioms Verif.Route.C67_shortest_partial
#print axioms Verif.Route.C67_violated
#print axioms Verif.Detection.C68_detection_process_partial
#print axioms Verif.Detection.C68_ends
#print axioms Verif.Storyboard.C69_answered
#print axioms Verif.Storyboard.C69_start_has_cause
#print axioms Verif.Storyboard.C69_end_has_cause
#print axioms Verif.Storyboard.C69_action_running
#print axioms Verif.Storyboard.C69_action_starts
#print axioms Verif.Storyboard.C69_event_waits
#print axioms Verif.Storyboard.C69_event_fires
#print axioms Verif.Storyboard.C69_event_running
#print axioms Verif.Storyboard.C69_group_starts
#print axioms Verif.Storyboard.C69_group_running
#print axioms Verif.Storyboard.C69_act_waits
#print axioms Verif.Storyboard.C69_act_fires
#print axioms Verif.Action.C70_exact
#print axioms Verif.Action.C70_reached
#print axioms Verif.Action.C70_ends
#print axioms Verif.Action.C70_one_actor_partial
#print axioms Verif.Action.C70_special
#print axioms Verif.Action.C70_violated
#print axioms Verif.Action.C71_requests
#print axioms Verif.Action.C71_ends
#print axioms Verif.Action.C72_lane_change_partial
#print axioms Verif.Action.C72_trajectory_partial
#print axioms Verif.Action.C72_lane_change_violated
#print axioms Verif.Action.C72_selection_violated
#print axioms Verif.Action.C72_no_actors_violated
#print axioms Verif.Action.C73_exact
#print axioms Verif.Action.C73_objects_partial
#print axioms Verif.Action.C73_violated
#print axioms Verif.Action.C74_add_partial
#print axioms Verif.Action.C74_teleport_partial
#print axioms Verif.Action.C74_delete
#print axioms Verif.Action.C74_known
#print axioms Verif.Action.C74_deleted_violated
#print axioms Verif.Action.C74_mixed_violated
#print axioms Verif.Action.C75_present
#print axioms Verif.Action.C75_absent_partial
#print axioms Verif.Action.C75_error_violated
#print axioms Verif.Action.C75_deleted_violated
#print axioms Verif.Action.C75_notEqualTo_violated
#print axioms Verif.Action.C76_partial
#print axioms Verif.Action.C76_violated
#print axioms Verif.Geometry.isIntersect_iff_partial
#print axioms Verif.Geometry.isIntersect_tiny_violated
#print axioms Verif.Geometry.isIntersectAny_iff_partial
#print axioms Verif.Geometry.getIntersection_partial
#print axioms Verif.Geometry.getIntersection_touching_violated
#print axioms Verif.Geometry.point_at_s
#print axioms Verif.Geometry.s_of_point
#print axioms Verif.Geometry.s_refused
#print axioms Verif.Geometry.s_of_crossing
#print axioms Verif.Geometry.s_of_pose
#print axioms Verif.Geometry.ofVector_spec
#print axioms Verif.Geometry.relativePosition_side
#print axioms Verif.Geometry.relativePosition_left_violated
#print axioms Verif.Geometry.slope_partial
#print axioms Verif.Geometry.slope_leftward_violated
#print axioms Verif.Geometry.getLineSegments_mem
#print axioms Verif.Geometry.project_onSegment
#print axioms Verif.Geometry.project_closest
#print axioms Verif.Geometry.closestOnPolygon_closest
#print axioms Verif.Geometry.closest_minimal
#print axioms Verif.Geometry.boxRelative_distance_partial
#print axioms Verif.Geometry.boxRelative_direction_violated
#print axioms Verif.Geometry.outline_corners
#print axioms Verif.Geometry.transformPoint_rigid
#print axioms Verif.Geometry.transformPoint_nonunit_violated
#print axioms Verif.Geometry.relative_then_global
#print axioms Verif.Geometry.global_then_relative
#print axioms Verif.Geometry.relative_position
#print axioms Verif.Geometry.transformPoint_compose
#print axioms Verif.Geometry.transformPointSensor_partial
#print axioms Verif.Geometry.transformPointSensor_difference
#print axioms Verif.Geometry.transformPointSensor_turned_violated
#print axioms Verif.Geometry.truncate_spec
#print axioms Verif.Geometry.normalize_spec
#print axioms Verif.Geometry.transformPoint_yaw
#print axioms Verif.Geometry.eulerToQuat_spec
#print axioms Verif.Geometry.directionToQuat_forward
#print axioms Verif.Geometry.slerp_zero
#print axioms Verif.Geometry.slerp_one
#print axioms Verif.Geometry.slerp_unit
#print axioms Verif.Geometry.slerp_yaw
#print axioms Verif.Geometry.slerp_long_way_violated
#print axioms Verif.Geometry.angleDifference_yaw
#print axioms Verif.Geometry.solveLinear_exact
#print axioms Verif.Geometry.solveQuadratic_partial
#print axioms Verif.Geometry.solveQuadratic_small_violated
#print axioms Verif.Geometry.solveQuadratic_touching_violated
#print axioms Verif.Geometry.cubicGap_discriminant
#print axioms Verif.Geometry.solveCubic_partial
#print axioms Verif.Geometry.solveCubic_triple_violated
#print axioms Verif.Geometry.solveCubic_lost_violated
#print axioms Verif.Geometry.solveCubic_moved_violated
#print axioms Verif.Geometry.hermite_ends
#print axioms Verif.Geometry.hermite_only
#print axioms Verif.Geometry.tangent_derivative
#print axioms Verif.Geometry.normal_left
#print axioms Verif.Geometry.make_points
#print axioms Verif.Geometry.spline_points
#print axioms Verif.Geometry.spline_continuous
#print axioms Verif.Geometry.two_points
#print axioms Verif.Geometry.index_back
#print axioms Verif.Geometry.sAt_back
#print axioms Verif.Geometry.samples_spaced
#print axioms Verif.Geometry.samples_refused
#print axioms Verif.Geometry.trajectory_spaced
#print axioms Verif.Geometry.collisions_defined
#print axioms Verif.Geometry.collisions_partial
#print axioms Verif.Geometry.collisionsPolygon_partial
#print axioms Verif.Geometry.collisions_overlap_violated
#print axioms Verif.Geometry.spline_collisions_partial
#print axioms Verif.Geometry.spline_collision_partial
#print axioms Verif.Geometry.spline_segment_partial
#print axioms Verif.Geometry.spline_place_partial
#print axioms Verif.Geometry.collisions_range_violated
#print axioms Verif.Geometry.two_points_segment_violated
#print axioms Verif.Geometry.two_points_polygon_violated
#print axioms Verif.Geometry.pointOffset_left
#print axioms Verif.Geometry.leftBounds_side
#print axioms Verif.Geometry.rightBounds_side
#print axioms Verif.Geometry.rightBounds_violated
#print axioms Verif.Geometry.bounds_defined
#print axioms Verif.Vehicle.C94_gear
#print axioms Verif.Vehicle.C94_ungeared
#print axioms Verif.Vehicle.C95_speed
#print axioms Verif.Vehicle.C95_history
#print axioms Verif.Vehicle.C95_history_vel_partial
#print axioms Verif.Vehicle.C95_steer_rate
#print axioms Verif.Vehicle.C95_speed_rate
#print axioms Verif.Vehicle.C95_speed_rate_geared
#print axioms Verif.Vehicle.C95_speed_rate_slope
#print axioms Verif.Vehicle.C95_reported
#print axioms Verif.Vehicle.C95_reported_change
#print axioms Verif.Vehicle.C95_park_violated
#print axioms Verif.Vehicle.C95_overshoot_violated
#print axioms Verif.Vehicle.C96_steer
#print axioms Verif.Vehicle.C96_dead_band
#print axioms Verif.Vehicle.C96_steer_history
#print axioms Verif.Vehicle.C96_steer_lag
#print axioms Verif.Vehicle.C96_steer_full
#print axioms Verif.Vehicle.C96_steer_lag_noGuard
#print axioms Verif.Vehicle.C96_acc_partial
#print axioms Verif.Vehicle.C96_acc_lag
#print axioms Verif.Vehicle.C96_acc_history_partial
#print axioms Verif.Vehicle.C96_speed_partial
#print axioms Verif.Vehicle.C96_speed_lag
#print axioms Verif.Vehicle.C96_windup_violated
#print axioms Verif.Vehicle.C97_delay
#print axioms Verif.Vehicle.C97_ideal
#print axioms Verif.Vehicle.C98_ideal_acc
#print axioms Verif.Vehicle.C98_ideal_vel
#print axioms Verif.Vehicle.C98_distance
#print axioms Verif.Vehicle.C98_rest
#print axioms Verif.Vehicle.C98_steady
#print axioms Verif.Vehicle.C98_turn
#print axioms Verif.Vehicle.C99_read
#print axioms Verif.Vehicle.C99_cell
#print axioms Verif.Vehicle.C99_node
#print axioms Verif.Vehicle.C99_outside
#print axioms Verif.Vehicle.C99_range
#print axioms Verif.Vehicle.C99_defined
#print axioms Verif.Vehicle.C99_followed
#print axioms Verif.Vehicle.C99_unread
#print axioms Verif.Vehicle.C99_unread_file
#print axioms Verif.Vehicle.C99_one_column_violated
#print axioms Verif.Vehicle.C99_descending_violated
