{
 "claims": [
  {
   "property": "C01",
   "status": "proved",
   "theorems": [
    "Avoidance.C01_wrap180_canonical",
    "Avoidance.C01_wrapPi_canonical",
    "Avoidance.C01_wrap180_turns",
    "Avoidance.C01_angleToRange_eq_wrapPi"
   ],
   "note": "In exact arithmetic. In single precision the range [-180,180) is left by a last digit (C123_leaves_range_witness); C123 bounds by how much."
  },
  {
   "property": "C02",
   "status": "proved",
   "theorems": [
    "Avoidance.C02_angleDifference_shortest",
    "Avoidance.C02_angleDifference_eq_wrap",
    "Avoidance.C02_header_range_false",
    "Avoidance.C02_indexAngleDifference"
   ],
   "note": "In exact arithmetic; with rounding see C123_angleDifference."
  },
  {
   "property": "C03",
   "status": "proved",
   "theorems": [
    "Avoidance.C03_wrapPolar_range",
    "Avoidance.C03_wrapPolar_fixed",
    "Avoidance.C03_wrapPolar_idempotent",
    "Avoidance.C03_wrapPolar_same_point"
   ],
   "note": "In exact arithmetic; with rounding see C123_wrapPolar."
  },
  {
   "property": "C04",
   "status": "proved",
   "theorems": [
    "Avoidance.C04_index_in_range",
    "Avoidance.C04_index_cell_contains",
    "Avoidance.C04_index_is_centre",
    "Avoidance.C04_index_round_trip"
   ],
   "note": "In exact arithmetic; with rounding see C123_index, C123_index_inside, C123_index_round_trip."
  },
  {
   "property": "C05",
   "status": "proved",
   "theorems": [
    "Avoidance.C05_cartesian_polar_round_trip",
    "Avoidance.C05_polar_ranges",
    "Avoidance.C05_polar_cartesian_round_trip",
    "Avoidance.C05_polar_of_direction"
   ],
   "note": ""
  },
  {
   "property": "C06",
   "status": "partial",
   "theorems": [
    "Avoidance.C06_fcu_round_trip_mirrors_height",
    "Avoidance.C06_fcu_round_trip_partial",
    "Avoidance.C06_fcu_round_trip_fails"
   ],
   "note": "The expected round trip is false of the code (height is mirrored): exact mirrored value, witness, and round trip for points at the origin's height."
  },
  {
   "property": "C07",
   "status": "proved",
   "theorems": [
    "Avoidance.C07_ned_enu_inverse",
    "Avoidance.C07_toNED_cross",
    "Avoidance.C07_angles_inverse",
    "Avoidance.C07_yaw_rad_inverse",
    "Avoidance.C07_axes",
    "Avoidance.C07_heading",
    "Avoidance.C07_pitch",
    "Avoidance.C07_orientation_inverse",
    "Avoidance.C07_orientation_compatible"
   ],
   "note": ""
  },
  {
   "property": "C08",
   "status": "proved",
   "theorems": [
    "Avoidance.C08_yaw_rate_short_way",
    "Avoidance.C08_yaw_rate_half_turn"
   ],
   "note": "In exact arithmetic; with rounding see C123_yaw_rate."
  },
  {
   "property": "C09",
   "status": "proved",
   "theorems": [
    "Avoidance.Histogram.C09_get_total_periodic",
    "Avoidance.Histogram.C09_get_after_history",
    "Avoidance.Histogram.C09_isEmpty_iff",
    "Avoidance.Histogram.C09_defined_iff"
   ],
   "note": ""
  },
  {
   "property": "C10",
   "status": "proved",
   "theorems": [
    "Avoidance.Histogram.C10_resample_guards",
    "Avoidance.Histogram.C10_down_up_id",
    "Avoidance.Histogram.C10_resample_in_bounds",
    "Avoidance.Histogram.C10_dims_after_history",
    "Avoidance.Histogram.C10_downsample_positive",
    "Avoidance.Histogram.C10_resample_values",
    "Avoidance.Histogram.C10_upsample_same_direction"
   ],
   "note": ""
  },
  {
   "property": "C11",
   "status": "partial",
   "theorems": [
    "Avoidance.C11_yaw_fov_membership_partial",
    "Avoidance.C11_fov_membership_partial",
    "Avoidance.C11_wrapping_camera_blind",
    "Avoidance.C11_membership_fails",
    "Avoidance.C11_fov_list"
   ],
   "note": "False of the code when the camera opening straddles the wrap-around or exceeds it; witnesses given; exact equivalence proved under the non-wrapping hypothesis."
  },
  {
   "property": "C12",
   "status": "proved",
   "theorems": [
    "Avoidance.C12_isInWhichFOV_unique",
    "Avoidance.C12_isOnEdge",
    "Avoidance.C12_isOnEdge_complete"
   ],
   "note": ""
  },
  {
   "property": "C13",
   "status": "proved",
   "theorems": [
    "Avoidance.C13_scaleToFOV"
   ],
   "note": ""
  },
  {
   "property": "C14",
   "status": "proved",
   "theorems": [
    "Avoidance.C14_update_monotone",
    "Avoidance.C14_history_monotone",
    "Avoidance.C14_empty",
    "Avoidance.C14_update_covers",
    "Avoidance.C14_update_behind_violated",
    "Avoidance.C14_updateFOVFromMaxima_history",
    "Avoidance.C14_updateFOVFromMaxima_covers"
   ],
   "note": ""
  },
  {
   "property": "C15",
   "status": "proved",
   "theorems": [
    "Avoidance.C15_sanitise",
    "Avoidance.C15_maxima_are_kept"
   ],
   "note": ""
  },
  {
   "property": "C16",
   "status": "proved",
   "theorems": [
    "Avoidance.C16_waypoint_message",
    "Avoidance.C16_bezier_message",
    "Avoidance.C16_bezier_keeps_stale_fields"
   ],
   "note": ""
  },
  {
   "property": "C17",
   "status": "proved",
   "theorems": [
    "Avoidance.C17_contents",
    "Avoidance.C17_ordered_bounded",
    "Avoidance.C17_insert_frame",
    "Avoidance.C17_negative_size_is_ub"
   ],
   "note": ""
  },
  {
   "property": "C18",
   "status": "proved",
   "theorems": [
    "Avoidance.C18_no_extrapolation",
    "Avoidance.C18_succeeds_iff",
    "Avoidance.C18_exact",
    "Avoidance.C18_single_entry_fails"
   ],
   "note": "Includes the exact success condition; the single-entry failure is a witness theorem."
  },
  {
   "property": "C19",
   "status": "partial",
   "theorems": [
    "Avoidance.C19_keys_alias",
    "Avoidance.C19_alias_observable",
    "Avoidance.C19_keys_injective_partial"
   ],
   "note": "False of the code in general (key not injective, witness); injective for source names not containing the separator."
  },
  {
   "property": "C20",
   "status": "proved",
   "theorems": [
    "Avoidance.C20_table",
    "Avoidance.C20_iterateOnce",
    "Avoidance.C20_run_follows_table",
    "Avoidance.C20_closed_set"
   ],
   "note": ""
  },
  {
   "property": "C21",
   "status": "proved",
   "theorems": [
    "Avoidance.C21_check",
    "Avoidance.C21_no_alarm_during_startup",
    "Avoidance.C21_escalation_monotone",
    "Avoidance.C21_no_reactivation_while_hovering",
    "Avoidance.C21_termination_not_sticky"
   ],
   "note": ""
  },
  {
   "property": "C22",
   "status": "proved",
   "theorems": [
    "Avoidance.C22_message",
    "Avoidance.C22_messages",
    "Avoidance.C22_unknown",
    "Avoidance.C22_poll"
   ],
   "note": ""
  },
  {
   "property": "C23",
   "status": "proved",
   "theorems": [
    "Avoidance.C23_mission_speed",
    "Avoidance.C23_no_current",
    "Avoidance.C23_airspeed_accepted"
   ],
   "note": ""
  },
  {
   "property": "C24",
   "status": "proved",
   "theorems": [
    "Avoidance.C24_exact",
    "Avoidance.C24_cell_of_direction",
    "Avoidance.C24_body_direction",
    "Avoidance.C24_sound",
    "Avoidance.C24_one_per_cell",
    "Avoidance.C24_complete",
    "Avoidance.C24_range",
    "Avoidance.C24_cells_in_bounds",
    "Avoidance.C24_zero_minimum_drops_everything"
   ],
   "note": ""
  },
  {
   "property": "C25",
   "status": "proved",
   "theorems": [
    "Avoidance.C25_mean_distance",
    "Avoidance.C25_occupied_iff"
   ],
   "note": ""
  },
  {
   "property": "C26",
   "status": "proved",
   "theorems": [
    "Avoidance.C26_compress"
   ],
   "note": ""
  },
  {
   "property": "C27",
   "status": "proved",
   "theorems": [
    "Avoidance.C27_best_candidates",
    "Avoidance.C27_head_is_cheapest",
    "Avoidance.C27_zero_candidates_is_ub"
   ],
   "note": ""
  },
  {
   "property": "C28",
   "status": "proved",
   "theorems": [
    "Avoidance.C28_obstacle_cost",
    "Avoidance.C28_undefined_at_goal",
    "Avoidance.C28_other_costs",
    "Avoidance.C28_other_costs_exact",
    "Avoidance.C28_farther_is_cheaper",
    "Avoidance.C28_perfect_direction"
   ],
   "note": ""
  },
  {
   "property": "C29",
   "status": "proved",
   "theorems": [
    "Avoidance.C29_row_fill",
    "Avoidance.C29_between_samples",
    "Avoidance.C29_unsampled_columns_ignored",
    "Avoidance.C29_obstacle_facing_goal",
    "Avoidance.C29_cost_matrix",
    "Avoidance.C29_step_size",
    "Avoidance.C29_cost_matrix_exact",
    "Avoidance.C29_horizon_obstacles_charged"
   ],
   "note": ""
  },
  {
   "property": "C30",
   "status": "proved",
   "theorems": [
    "Avoidance.C30_continuation_is_geometric",
    "Avoidance.C30_padding",
    "Avoidance.C30_smoothing",
    "Avoidance.C30_smoothing_consequences"
   ],
   "note": ""
  },
  {
   "property": "C31",
   "status": "proved",
   "theorems": [
    "Avoidance.C31_setpoint_on_path",
    "Avoidance.C31_valid_iff",
    "Avoidance.C31_edges",
    "Avoidance.C31_defined",
    "Avoidance.C31_rejects_at_interior_node"
   ],
   "note": ""
  },
  {
   "property": "C32",
   "status": "proved",
   "theorems": [
    "Avoidance.C32_obstacle_distances",
    "Avoidance.C32_bijective"
   ],
   "note": ""
  },
  {
   "property": "C33",
   "status": "proved",
   "theorems": [
    "Avoidance.C33_speed_limit",
    "Avoidance.C33_exact_speed"
   ],
   "note": ""
  },
  {
   "property": "C34",
   "status": "proved",
   "theorems": [
    "Avoidance.C34_closest_point",
    "Avoidance.C34_which_point"
   ],
   "note": ""
  },
  {
   "property": "C35",
   "status": "proved",
   "theorems": [
    "Avoidance.C35_defined_near",
    "Avoidance.C35_exceptions_countable",
    "Avoidance.C35_next_is_cheapest",
    "Avoidance.C35_complete",
    "Avoidance.C35_tree",
    "Avoidance.C35_path",
    "Avoidance.C35_defined",
    "Avoidance.C35_zero_children_is_ub"
   ],
   "note": ""
  },
  {
   "property": "C36",
   "status": "proved",
   "theorems": [
    "Avoidance.C36_norm_clamp",
    "Avoidance.C36_desired_velocity_limits",
    "Avoidance.C36_step_composes",
    "Avoidance.C36_trajectory",
    "Avoidance.C36_step_physics",
    "Avoidance.C36_desired_velocity_exact",
    "Avoidance.C36_control_law",
    "Avoidance.C36_steady_flight",
    "Avoidance.C36_duration_not_covered_witness",
    "Avoidance.C36_zero_goal_is_nan"
   ],
   "note": ""
  },
  {
   "property": "C37",
   "status": "proved",
   "theorems": [
    "Avoidance.C37_direct_waypoint",
    "Avoidance.C37_path_waypoint",
    "Avoidance.C37_path_no_speed",
    "Avoidance.C37_usable_no_speed",
    "Avoidance.C37_altitude_waypoint",
    "Avoidance.C37_landing_setpoint",
    "Avoidance.C37_linear_velocity",
    "Avoidance.C37_altitude_change",
    "Avoidance.C37_next_state",
    "Avoidance.C37_transitions_mapped",
    "Avoidance.C37_loiter",
    "Avoidance.C37_loiter_delay",
    "Avoidance.C37_offboard_altitude_first",
    "Avoidance.C37_hover",
    "Avoidance.C37_hover_constant",
    "Avoidance.C37_offboard_vertical",
    "Avoidance.C37_landing_setpoint_stale",
    "Avoidance.C37_position_has_no_nan"
   ],
   "note": ""
  },
  {
   "property": "C38",
   "status": "proved",
   "theorems": [
    "Avoidance.C38_speed_exact",
    "Avoidance.C38_speed_step",
    "Avoidance.C38_speed_cycle",
    "Avoidance.C38_speed_bound",
    "Avoidance.C38_speed_decays_outside_fov"
   ],
   "note": ""
  },
  {
   "property": "C39",
   "status": "proved",
   "theorems": [
    "Avoidance.C39_filter_law",
    "Avoidance.C39_landing_resets",
    "Avoidance.C39_yaw_law",
    "Avoidance.C39_heading_at_goal",
    "Avoidance.C39_heading_constant",
    "Avoidance.C39_disabled",
    "Avoidance.C39_integrates",
    "Avoidance.C39_fixed_point",
    "Avoidance.C39_yaw"
   ],
   "note": ""
  },
  {
   "property": "C40",
   "status": "proved",
   "theorems": [
    "Avoidance.C40_complete_frames",
    "Avoidance.C40_plans_when_complete",
    "Avoidance.C40_latest_cloud",
    "Avoidance.C40_no_cameras"
   ],
   "note": ""
  },
  {
   "property": "C41",
   "status": "proved",
   "theorems": [
    "Avoidance.C41_sent_iff",
    "Avoidance.C41_never_sent_with_hover",
    "Avoidance.C41_loiter_never_commanded",
    "Avoidance.C41_termination_revoked",
    "Avoidance.C41_sent_content",
    "Avoidance.C41_nav_state"
   ],
   "note": "Exact condition for sending waypoints; findings proved as negative theorems: a hover status is never accompanied by waypoints, loiter is never commanded through hover, termination is revoked."
  },
  {
   "property": "C42",
   "status": "proved",
   "theorems": [
    "Avoidance.C42_no_deadlock",
    "Avoidance.C42_waiting_occurs",
    "Avoidance.C42_no_deadlock_with_data"
   ],
   "note": ""
  },
  {
   "property": "C43",
   "status": "proved",
   "theorems": [
    "Avoidance.Landing.C43_index_in_range",
    "Avoidance.Landing.C43_square_unique",
    "Avoidance.Landing.C43_extent",
    "Avoidance.Landing.C43_position_index"
   ],
   "note": ""
  },
  {
   "property": "C44",
   "status": "proved",
   "theorems": [
    "Avoidance.Landing.C44_cell_statistics",
    "Avoidance.Landing.C44_order_independent"
   ],
   "note": ""
  },
  {
   "property": "C45",
   "status": "proved",
   "theorems": [
    "Avoidance.Landing.C45_unsmoothed",
    "Avoidance.Landing.C45_smoothed",
    "Avoidance.Landing.C45_padding_in_range",
    "Avoidance.Landing.C45_zero_limit_never_lands",
    "Avoidance.Landing.C45_too_many_required",
    "Avoidance.Landing.C45_empty_cell_landable_witness",
    "Avoidance.Landing.C45_zero_points_witness",
    "Avoidance.Landing.C45_border_depends_on_altitude_witness",
    "Avoidance.Landing.C45_interior_height_invariant"
   ],
   "note": "Exact conditions; findings as witness theorems (zero limits, empty cells, border cells)."
  },
  {
   "property": "C46",
   "status": "proved",
   "theorems": [
    "Avoidance.Landing.C46_run",
    "Avoidance.Landing.C46_between",
    "Avoidance.Landing.C46_combine_iff",
    "Avoidance.Landing.C46_histories",
    "Avoidance.Landing.C46_rosbag_resize_witness",
    "Avoidance.Landing.C46_response",
    "Avoidance.Landing.C46_startup_unsafe_witness",
    "Avoidance.Landing.C46_published_is_previous",
    "Avoidance.Landing.C46_message_after_resize",
    "Avoidance.Landing.C46_first_message"
   ],
   "note": "Findings: start-up bias and replayed grids of another size (witness theorems)."
  },
  {
   "property": "C47",
   "status": "partial",
   "theorems": [
    "Avoidance.Landing.C47_landing_evidence",
    "Avoidance.Landing.C47_unchecked_landing_witness",
    "Avoidance.Landing.C47_landing_was_checked",
    "Avoidance.Landing.C47_enter_and_leave",
    "Avoidance.Landing.C47_lands_at_patch_partial"
   ],
   "note": "Proved: landing only after an evaluation that found a landable patch, with the evidence needed, entered only near the goal and left only by reset; landing place proved when the waypoint and the order to land stay the same in between (C47_lands_at_patch_partial; from the ground's point of view: C107). The unrestricted place claim is false of the code: C47_unchecked_landing_witness."
  },
  {
   "property": "C48",
   "status": "proved",
   "theorems": [
    "Avoidance.Landing.C48_visualisation_iff",
    "Avoidance.Landing.C48_patch",
    "Avoidance.Landing.C48_evaluation",
    "Avoidance.Landing.C48_grid_too_small",
    "Avoidance.Landing.C48_visualisation_witness",
    "Avoidance.Landing.C48_visualisation_default"
   ],
   "note": "Exact for the evaluation. Findings: grid smaller than the patch, and the visualisation's hard-coded centre, are out of range (proved)."
  },
  {
   "property": "C49",
   "status": "proved",
   "theorems": [
    "Avoidance.Landing.C49_reset",
    "Avoidance.Landing.C49_forgets",
    "Avoidance.Landing.C49_other_modes",
    "Avoidance.Landing.C49_stale_velocity_witness"
   ],
   "note": "Finding: the stale vertical velocity and undefined goal height survive the reset (C49_stale_velocity_witness)."
  },
  {
   "property": "C50",
   "status": "partial",
   "theorems": [
    "Avoidance.Landing.C50_exact_partial",
    "Avoidance.Landing.C50_complete_valid",
    "Avoidance.Landing.C50_incomplete_valid_witness"
   ],
   "note": "The expected property is false of the code (misplaced parenthesis): exact condition and witness proved."
  },
  {
   "property": "C51",
   "status": "proved",
   "theorems": [
    "Avoidance.Landing.C51_rank",
    "Avoidance.Landing.C51_defined_iff"
   ],
   "note": "Patch size 0, which the configuration permits, is undefined behaviour (part of C51_defined_iff)."
  },
  {
   "property": "C52",
   "status": "proved",
   "theorems": [
    "Avoidance.Global.C52_grid_distance",
    "Avoidance.Global.C52_goal_tests",
    "Avoidance.Global.C52_euclidean",
    "Avoidance.Global.C52_cell_unique",
    "Avoidance.Global.C52_partition",
    "Avoidance.Global.C52_centre",
    "Avoidance.Global.C52_neighbors",
    "Avoidance.Global.C52_neighbors_symmetric",
    "Avoidance.Global.C52_diagonal_neighbors",
    "Avoidance.Global.C52_diag_metric",
    "Avoidance.Global.C52_goal_radius",
    "Avoidance.Global.C52_goal_default_radius",
    "Avoidance.Global.C52_step_length",
    "Avoidance.Global.C52_diag_admissible",
    "Avoidance.Global.C52_neighbor_from_yaw_violated",
    "Avoidance.Global.C52_flow_neighbors"
   ],
   "note": "Cell/position conversions exact. Finding: the neighbour from a yaw (C52_neighbor_from_yaw_violated)."
  },
  {
   "property": "C53",
   "status": "proved",
   "theorems": [
    "Avoidance.Global.C53_planner_path",
    "Avoidance.Global.C53_planner_altitude",
    "Avoidance.Global.C53_planner_no_loop",
    "Avoidance.Global.C53_terminates",
    "Avoidance.Global.C53_iterations",
    "Avoidance.Global.C53_path_legal"
   ],
   "note": ""
  },
  {
   "property": "C54",
   "status": "proved",
   "theorems": [
    "Avoidance.Global.C54_passes",
    "Avoidance.Global.C54_endpoints_and_order",
    "Avoidance.Global.C54_removal_rule",
    "Avoidance.Global.C54_total_cost",
    "Avoidance.Global.C54_swapped_parameters_violated",
    "Avoidance.Global.C54_simplified_edge_unsafe_violated"
   ],
   "note": "Findings as negative theorems: the node swaps the two parameters; the simplified edge is not re-checked against the map."
  },
  {
   "property": "C55",
   "status": "proved",
   "theorems": [
    "Avoidance.Global.C55_stops",
    "Avoidance.Global.C55_searches",
    "Avoidance.Global.C55_start",
    "Avoidance.Global.C55_schedule",
    "Avoidance.Global.C55_total_iterations",
    "Avoidance.Global.C55_terminates",
    "Avoidance.Global.C55_minimum_one_hangs_violated",
    "Avoidance.Global.C55_result",
    "Avoidance.Global.C55_no_search_violated",
    "Avoidance.Global.C55_planner_path",
    "Avoidance.Global.C55_hover_at_goal_hangs_violated",
    "Avoidance.Global.C55_planner_terminates"
   ],
   "note": "Exact schedule, budget, result and termination condition; the non-terminating and the no-search configurations are negative theorems."
  },
  {
   "property": "C56",
   "status": "proved",
   "theorems": [
    "Avoidance.Global.C56_history",
    "Avoidance.Global.C56_nothing_before_goal",
    "Avoidance.Global.C56_go_back",
    "Avoidance.Global.C56_go_back_forgets_cell_violated",
    "Avoidance.Global.C56_way_back_ends_at_low_risk",
    "Avoidance.Global.C56_goal_resumes_recording"
   ],
   "note": "Findings: one cell forgotten on the way back (C56_go_back_forgets_cell_violated), nothing recorded before the first goal."
  },
  {
   "property": "C57",
   "status": "partial",
   "theorems": [
    "Avoidance.Global.C57_world",
    "Avoidance.Global.C57_answered",
    "Avoidance.Global.C57_answers_current",
    "Avoidance.Global.C57_answers_since_last_map",
    "Avoidance.Global.C57_stale_violated",
    "Avoidance.Global.C57_wrong_map_violated"
   ],
   "note": "Freshness proved for histories of maps and queries and the weaker guarantee for all histories; false in general: C57_stale_violated, C57_wrong_map_violated."
  },
  {
   "property": "C58",
   "status": "partial",
   "theorems": [
    "Avoidance.Global.C58_cycle_law",
    "Avoidance.Global.C58_goal_taken",
    "Avoidance.Global.C58_cycle_keeps_mission",
    "Avoidance.Global.C58_mission_kept",
    "Avoidance.Global.C58_mission_abandoned_violated",
    "Avoidance.Global.C58_lost_before_first_map_violated",
    "Avoidance.Global.C58_intermediate_goal",
    "Avoidance.Global.C58_no_intermediate_goal",
    "Avoidance.Global.C58_old_goals_survive_violated",
    "Avoidance.Global.C58_altitude_change_ignored_violated",
    "Avoidance.Global.C58_stack_grows_violated"
   ],
   "note": "Mission goal kept at the bottom of the stack over every run of positions, velocities and planning; the cases in which it is lost or altered are the _violated theorems."
  },
  {
   "property": "C59",
   "status": "proved",
   "theorems": [
    "Avoidance.Global.C59_rate",
    "Avoidance.Global.C59_any_two",
    "Avoidance.Global.C59_not_starved"
   ],
   "note": ""
  },
  {
   "property": "C60",
   "status": "proved",
   "theorems": [
    "Avoidance.Global.C60_risk_heuristic_index_violated",
    "Avoidance.Global.C60_risk_heuristic",
    "Avoidance.Global.C60_risk_law",
    "Avoidance.Global.C60_prior_law",
    "Avoidance.Global.C60_risk_monotone",
    "Avoidance.Global.C60_cell_risk_law",
    "Avoidance.Global.C60_posterior",
    "Avoidance.Global.C60_posterior_not_neutral",
    "Avoidance.Global.C60_altPrior",
    "Avoidance.Global.C60_altPrior_below_ground_violated",
    "Avoidance.Global.C60_single_risk",
    "Avoidance.Global.C60_cell_risk",
    "Avoidance.Global.C60_risk_heuristic_exact"
   ],
   "note": "Bounds, symmetry, monotonicity, in-range table access; findings: prior below ground and risk-heuristic index."
  },
  {
   "property": "C61",
   "status": "proved",
   "theorems": [
    "Avoidance.Global.C61_convex_hull",
    "Avoidance.Global.C61_ends",
    "Avoidance.Global.C61_sampled",
    "Avoidance.Global.C61_smooth_size",
    "Avoidance.Global.C61_smooth_hull",
    "Avoidance.Global.C61_smooth_orientation",
    "Avoidance.Global.C61_cuts_corner",
    "Avoidance.Global.C61_derivative",
    "Avoidance.Global.C61_turns_join",
    "Avoidance.Global.C61_acceleration_violated",
    "Avoidance.Global.C61_acceleration_magnitude_violated",
    "Avoidance.Global.C61_two_points"
   ],
   "note": "Geometry and speed profile; finding: the acceleration functions ignore the duration."
  },
  {
   "property": "C62",
   "status": "proved",
   "theorems": [
    "Avoidance.C62_next_yaw_faces",
    "Avoidance.C62_rpy_read_back",
    "Avoidance.C62_pose_yaw_round_trip"
   ],
   "note": ""
  },
  {
   "property": "C63",
   "status": "proved",
   "theorems": [
    "Avoidance.C63_histogram_column_inside"
   ],
   "note": ""
  },
  {
   "property": "C64",
   "status": "proved",
   "theorems": [
    "Avoidance.C64_fresh_when_enabled",
    "Avoidance.C64_stale_obstacle_distances"
   ],
   "note": ""
  },
  {
   "property": "C65",
   "status": "proved",
   "theorems": [
    "Avoidance.C65_histogram_pixel",
    "Avoidance.C65_linear_scale"
   ],
   "note": ""
  },
  {
   "property": "C66",
   "status": "proved",
   "theorems": [
    "Avoidance.C66_smoothing_converges",
    "Avoidance.C66_smoothing_diverges"
   ],
   "note": ""
  },
  {
   "property": "C67",
   "status": "proved",
   "theorems": [
    "Avoidance.C67_planner_goal_was_set",
    "Avoidance.C67_goal_lost_violated",
    "Avoidance.C67_click_sets_altitude_violated",
    "Avoidance.C67_quiet_hand_over",
    "Avoidance.C67_planner_goal_current",
    "Avoidance.C67_hand_over",
    "Avoidance.C67_goals_diverge_witness",
    "Avoidance.C67_new_item",
    "Avoidance.C67_known_item",
    "Avoidance.C67_first_goal",
    "Avoidance.C67_clicked_and_topic"
   ],
   "note": "Exact on all histories without the special command; with it the two goals can differ for good (witness)."
  },
  {
   "property": "C68",
   "status": "proved",
   "theorems": [
    "Avoidance.Landing.C68_vertical_descent",
    "Avoidance.Landing.C68_altitude_direction",
    "Avoidance.Landing.C68_below_witness"
   ],
   "note": "Finding: below the loiter height the vehicle is sent further down (witness)."
  },
  {
   "property": "C69",
   "status": "proved",
   "theorems": [
    "Avoidance.Landing.C69_spiral",
    "Avoidance.Landing.C69_iteration_safe"
   ],
   "note": ""
  },
  {
   "property": "C70",
   "status": "proved",
   "theorems": [
    "Avoidance.Landing.C70_grid_round_trip"
   ],
   "note": ""
  },
  {
   "property": "C71",
   "status": "partial",
   "theorems": [
    "Avoidance.SlpNode.C71_status_exact",
    "Avoidance.SlpNode.C71_messages_exact",
    "Avoidance.SlpNode.C71_silent_while_waiting",
    "Avoidance.SlpNode.C71_termination_revoked",
    "Avoidance.SlpNode.C71_heartbeat",
    "Avoidance.SlpNode.C71_each_run_new_transformation",
    "Avoidance.SlpNode.C71_clouds_in_order",
    "Avoidance.SlpNode.C71_run_undisturbed",
    "Avoidance.SlpNode.C71_same_message_for_ever_violated",
    "Avoidance.SlpNode.C71_each_run_new_message_partial",
    "Avoidance.SlpNode.C71_lost_message_violated",
    "Avoidance.SlpNode.C71_startup_race_violated",
    "Avoidance.SlpNode.C71_startup_partial"
   ],
   "note": "Status exact, heartbeat bound, fresh transformation per run for every interleaving. New message per run proved for prompt workers only (false in general: C71_same_message_for_ever_violated); C71_lost_message_violated, C71_silent_while_waiting, C71_termination_revoked, C71_startup_race_violated are findings."
  },
  {
   "property": "C72",
   "status": "proved",
   "theorems": [
    "Avoidance.Global.C72_planner_complete",
    "Avoidance.Global.C72_planner_effort",
    "Avoidance.Global.C72_effort",
    "Avoidance.Global.C72_finds",
    "Avoidance.Global.C72_search_complete"
   ],
   "note": ""
  },
  {
   "property": "C73",
   "status": "proved",
   "theorems": [
    "Avoidance.Global.C73_cell_search_quality",
    "Avoidance.Global.C73_planner_quality",
    "Avoidance.Global.C73_smoothness_overestimates_violated",
    "Avoidance.Global.C73_bounded_suboptimality",
    "Avoidance.Global.C73_heuristic_exact",
    "Avoidance.Global.C73_turn_estimate"
   ],
   "note": "Finding: the turn heuristic overestimates even at factor 1."
  },
  {
   "property": "C74",
   "status": "partial",
   "theorems": [
    "Avoidance.Global.C74_rotation_partial",
    "Avoidance.Global.C74_quarter_turn_free_violated",
    "Avoidance.Global.C74_vertical_move_violated",
    "Avoidance.Global.C74_smoothness_zero_straight"
   ],
   "note": "Proved except for first move along x, second along y, where it is false (C74_quarter_turn_free_violated, C74_vertical_move_violated)."
  },
  {
   "property": "C75",
   "status": "partial",
   "theorems": [
    "Avoidance.Global.C75_flat_edge_covered",
    "Avoidance.Global.C75_edge_risk",
    "Avoidance.Global.C75_edge_free",
    "Avoidance.Global.C75_path_free",
    "Avoidance.Global.C75_steep_edge_misses_cell_violated",
    "Avoidance.Global.C75_high_obstacles_ignored_violated",
    "Avoidance.Global.C75_flies_into_high_obstacle_violated"
   ],
   "note": "Proved for flat edges below layer 9 with the shipped limits and bounded risk for the rest; false in general: see the _violated theorems."
  },
  {
   "property": "C76",
   "status": "partial",
   "theorems": [
    "Avoidance.Global.C76_cell_search_complete",
    "Avoidance.Global.C76_fallback_complete",
    "Avoidance.Global.C76_cell_search",
    "Avoidance.Global.C76_fallback_path",
    "Avoidance.Global.C76_fallback_too_high_violated",
    "Avoidance.Global.C76_fallback_through_obstacle_violated"
   ],
   "note": "Shape, unit steps and cell risks proved; altitude limit and the risk of three cells are violated (theorems)."
  },
  {
   "property": "C77",
   "status": "partial",
   "theorems": [
    "Avoidance.Global.C77_speed_law",
    "Avoidance.Global.C77_setpoint",
    "Avoidance.Global.C77_on_segment",
    "Avoidance.Global.C77_overshoot_violated",
    "Avoidance.Global.C77_at_goal_violated",
    "Avoidance.Global.C77_speed",
    "Avoidance.Global.C77_switch_violated",
    "Avoidance.Global.C77_published"
   ],
   "note": "Exact setpoint, speed law and monotonicity; overshoot, NaN at the goal and the void switch are violations (theorems)."
  },
  {
   "property": "C78",
   "status": "proved",
   "theorems": [
    "Avoidance.Global.C78_law",
    "Avoidance.Global.C78_follows_path",
    "Avoidance.Global.C78_leaves_goal_only_when_close",
    "Avoidance.Global.C78_yaw_check_violated",
    "Avoidance.Global.C78_reaches_end",
    "Avoidance.Global.C78_short_path"
   ],
   "note": "Finding: the yaw test is void except at exactly half a turn (C78_yaw_check_violated)."
  },
  {
   "property": "C79",
   "status": "partial",
   "theorems": [
    "Avoidance.Global.C79_failure_restarts_path_violated",
    "Avoidance.Global.C79_stop_keeps_flying_violated",
    "Avoidance.Global.C79_success"
   ],
   "note": "Successful plans proved; behaviour after a failed plan is a violation (two theorems)."
  },
  {
   "property": "C80",
   "status": "proved",
   "theorems": [
    "Avoidance.Global.C80_path_message"
   ],
   "note": ""
  },
  {
   "property": "C81",
   "status": "proved",
   "theorems": [
    "Avoidance.Landing.C81_resize_forgets",
    "Avoidance.Landing.C81_no_order_forgets",
    "Avoidance.Landing.C81_goto",
    "Avoidance.Landing.C81_altitude",
    "Avoidance.Landing.C81_loiter",
    "Avoidance.Landing.C81_goto_land",
    "Avoidance.Landing.C81_evaluate",
    "Avoidance.Landing.C81_waypoint_message",
    "Avoidance.Landing.C81_pose_and_parameters"
   ],
   "note": ""
  },
  {
   "property": "C82",
   "status": "proved",
   "theorems": [
    "Avoidance.Landing.C82_lands",
    "Avoidance.Landing.C82_stuck",
    "Avoidance.Landing.C82_stuck_witness"
   ],
   "note": ""
  },
  {
   "property": "C83",
   "status": "proved",
   "theorems": [
    "Avoidance.Global.C83_offered",
    "Avoidance.Global.C83_examined",
    "Avoidance.Global.C83_risk",
    "Avoidance.Global.C83_accepted",
    "Avoidance.Global.C83_cost",
    "Avoidance.Global.C83_summary",
    "Avoidance.Global.C83_summary_adds_up",
    "Avoidance.Global.C83_published_risks",
    "Avoidance.Global.C83_cost_in_run",
    "Avoidance.Global.C83_blocked_exact"
   ],
   "note": ""
  },
  {
   "property": "C84",
   "status": "proved",
   "theorems": [
    "Avoidance.Landing.C84_published",
    "Avoidance.Landing.C84_replay",
    "Avoidance.Landing.C84_record_replay",
    "Avoidance.Landing.C84_sequence"
   ],
   "note": ""
  },
  {
   "property": "C85",
   "status": "proved",
   "theorems": [
    "Avoidance.Landing.C85_not_emptied",
    "Avoidance.Landing.C85_sizes",
    "Avoidance.Landing.C85_landable"
   ],
   "note": ""
  },
  {
   "property": "C86",
   "status": "proved",
   "theorems": [
    "Avoidance.C86_run_defined_near",
    "Avoidance.C86_run_defined",
    "Avoidance.C86_plan",
    "Avoidance.C86_distances",
    "Avoidance.C86_goal_height_overwritten",
    "Avoidance.C86_fields_of_view",
    "Avoidance.C86_order_needed",
    "Avoidance.C86_speed"
   ],
   "note": ""
  },
  {
   "property": "C87",
   "status": "proved",
   "theorems": [
    "Avoidance.C87_charged",
    "Avoidance.C87_avoided",
    "Avoidance.C87_first_leg"
   ],
   "note": ""
  },
  {
   "property": "C88",
   "status": "proved",
   "theorems": [
    "Avoidance.C88_provenance",
    "Avoidance.C88_forgotten",
    "Avoidance.C88_kept",
    "Avoidance.C88_still_occupied"
   ],
   "note": ""
  },
  {
   "property": "C89",
   "status": "partial",
   "theorems": [
    "Avoidance.C89_race_free_partial",
    "Avoidance.C89_races_violated"
   ],
   "note": "Race freedom proved for the guarded data (C89_race_free_partial); for twelve data a race is reached (C89_races_violated), so the full property is false of the code."
  },
  {
   "property": "C90",
   "status": "proved",
   "theorems": [
    "Avoidance.C90_complete_frames",
    "Avoidance.C90_transforms_again",
    "Avoidance.C90_plans_again",
    "Avoidance.C90_cloud_not_noticed_violated",
    "Avoidance.C90_frame_not_noticed_violated"
   ],
   "note": "Liveness under fairness for all schedules; the two ways in which a single notification is lost are shown (C90_cloud_not_noticed_violated, C90_frame_not_noticed_violated)."
  },
  {
   "property": "C91",
   "status": "proved",
   "theorems": [
    "Avoidance.C91_message",
    "Avoidance.C91_only_the_command_loop_sends",
    "Avoidance.C91_one_per_pose",
    "Avoidance.C91_plan_used",
    "Avoidance.C91_fresh",
    "Avoidance.C91_goal_ignored",
    "Avoidance.C91_goal_in_force",
    "Avoidance.C91_fields_of_view",
    "Avoidance.C91_smoothing",
    "Avoidance.C91_previous_goal_uninitialised_violated",
    "Avoidance.C91_reconfigured_goal_violated"
   ],
   "note": "The node with its planner, waypoint generator and watchdog as one transition system (NodeRun); two findings beside it (C91_previous_goal_uninitialised_violated, C91_reconfigured_goal_violated)."
  },
  {
   "property": "C92",
   "status": "partial",
   "theorems": [
    "Avoidance.C92_planned_speed",
    "Avoidance.C92_speed_partial",
    "Avoidance.C92_setpoint_partial",
    "Avoidance.C92_within_limits",
    "Avoidance.C92_stops_in_sight_partial",
    "Avoidance.C92_uninitialised_speed_violated"
   ],
   "note": "Full property false: avoidanceOutput::cruise_velocity is uninitialised until the first plan (C92_uninitialised_speed_violated). Proved if that memory is not a number or within the limits."
  },
  {
   "property": "C93",
   "status": "partial",
   "theorems": [
    "Avoidance.C93_first_leg",
    "Avoidance.C93_setpoint_partial",
    "Avoidance.C93_direct",
    "Avoidance.C93_used_up",
    "Avoidance.C93_straight_to_obstacle_violated",
    "Avoidance.C93_plan_defined"
   ],
   "note": "Full property false: setpoints straight to the goal without regard to what was seen (C93_straight_to_obstacle_violated, C93_used_up, C93_direct). Proved for the plan (C93_first_leg, C93_plan_defined) and for every setpoint while it is followed (C93_setpoint_partial)."
  },
  {
   "property": "C94",
   "status": "partial",
   "theorems": [
    "Avoidance.C94_bins",
    "Avoidance.C94_when",
    "Avoidance.C94_reported_partial",
    "Avoidance.C94_true_alarm",
    "Avoidance.C94_near_obstacle_shown_far_violated",
    "Avoidance.C94_close_obstacle_shown_free_violated"
   ],
   "note": "Full property false: mean distances hide near obstacles (C94_near_obstacle_shown_far_violated) and an obstacle within the minimum range reads free (C94_close_obstacle_shown_free_violated). Proved: exact contents of the message (C94_bins), when it is sent (C94_when), an obstacle seen is shown within the sensor range (C94_reported_partial), every distance shown is backed by measured points (C94_true_alarm)."
  },
  {
   "property": "C95",
   "status": "proved",
   "theorems": [
    "Avoidance.C95_step",
    "Avoidance.C95_status",
    "Avoidance.C95_active",
    "Avoidance.C95_termination",
    "Avoidance.C95_recovers",
    "Avoidance.C95_position_gap"
   ],
   "note": "The finding C95_position_gap concerns the setpoints, not the status."
  },
  {
   "property": "C96",
   "status": "partial",
   "theorems": [
    "Avoidance.C96_histogram_image",
    "Avoidance.C96_nearer_is_whiter",
    "Avoidance.C96_cost_image",
    "Avoidance.C96_shown_partial",
    "Avoidance.C96_histogram_image_header_violated",
    "Avoidance.C96_heading_violated"
   ],
   "note": "False of the code in two places, shown by C96_histogram_image_header_violated and C96_heading_violated; all the rest is proved."
  },
  {
   "property": "C97",
   "status": "partial",
   "theorems": [
    "Avoidance.C97_tree_drawn",
    "Avoidance.C97_path_drawn",
    "Avoidance.C97_distances_drawn_partial",
    "Avoidance.C97_distances_offset_violated",
    "Avoidance.C97_fov_drawn"
   ],
   "note": "False of the code for the direction of the distance triangles (C97_distances_offset_violated); all the rest is proved."
  },
  {
   "property": "C98",
   "status": "proved",
   "theorems": [
    "Avoidance.Global.C98_length",
    "Avoidance.Global.C98_energy",
    "Avoidance.Global.C98_recorded",
    "Avoidance.Global.C98_reported",
    "Avoidance.Global.C98_corners",
    "Avoidance.Global.C98_kinetic",
    "Avoidance.Global.C98_bezier_path",
    "Avoidance.Global.C98_corners_length",
    "Avoidance.Global.C98_duration"
   ],
   "note": ""
  },
  {
   "property": "C99",
   "status": "partial",
   "theorems": [
    "Avoidance.C99_unload_partial",
    "Avoidance.C99_runs_until_exit",
    "Avoidance.C99_terminates_violated",
    "Avoidance.C99_unload_hangs_violated",
    "Avoidance.C99_landing_never_ends_violated"
   ],
   "note": "C99_unload_partial needs that no other thread keeps a mutex for ever; without it the claim is false (C99_unload_hangs_violated). What follows the return of the destructor, and the landing planner node, are shown to be wrong (C99_terminates_violated, C99_landing_never_ends_violated)."
  },
  {
   "property": "C100",
   "status": "partial",
   "theorems": [
    "Avoidance.C100_confined_partial",
    "Avoidance.C100_map_partial",
    "Avoidance.C100_risks_partial",
    "Avoidance.C100_races_violated",
    "Avoidance.C100_landing_partial",
    "Avoidance.C100_landing_violated"
   ],
   "note": "C100_map_partial and C100_risks_partial give the exact settings under which map and risks are free of races; the rest of the claim is false of the code (C100_races_violated, C100_landing_violated)."
  },
  {
   "property": "C101",
   "status": "partial",
   "theorems": [
    "Avoidance.Global.C101_cycle_ends_partial",
    "Avoidance.Global.C101_occupied_start_violated",
    "Avoidance.Global.C101_blocked_path_flown_violated",
    "Avoidance.Global.C101_late_goal_violated",
    "Avoidance.Global.C101_risk_since_map_partial",
    "Avoidance.Global.C101_plans_partial",
    "Avoidance.Global.C101_on_track_partial",
    "Avoidance.Global.C101_setpoint_partial"
   ],
   "note": "The _partial theorems give what holds of every run; the claim that setpoints lead only through permitted cells is false of the code: C101_occupied_start_violated, C101_blocked_path_flown_violated and C101_late_goal_violated."
  },
  {
   "property": "C102",
   "status": "partial",
   "theorems": [
    "Avoidance.World.C102_resolve_partial",
    "Avoidance.World.C102_socket_violated",
    "Avoidance.World.C102_environment_violated",
    "Avoidance.World.C102_markers_partial",
    "Avoidance.World.C102_missing_file_violated",
    "Avoidance.World.C102_screen_partial",
    "Avoidance.World.C102_screen_exact_partial",
    "Avoidance.World.C102_removed_object_violated",
    "Avoidance.World.C102_drone_partial"
   ],
   "note": "The _partial theorems say exactly what is published and shown; that the screen shows the world of the file is false of the code: C102_removed_object_violated, C102_missing_file_violated, C102_socket_violated, C102_environment_violated."
  },
  {
   "property": "C103",
   "status": "partial",
   "theorems": [
    "Avoidance.Landing.C103_hsv",
    "Avoidance.Landing.C103_std_dev_partial",
    "Avoidance.Landing.C103_black_not_flat_partial",
    "Avoidance.Landing.C103_std_dev_violated",
    "Avoidance.Landing.C103_counter_partial",
    "Avoidance.Landing.C103_counter_violated",
    "Avoidance.Landing.C103_cells_partial",
    "Avoidance.Landing.C103_cloud",
    "Avoidance.Landing.C103_message_lags_violated",
    "Avoidance.Landing.C103_path_partial",
    "Avoidance.Landing.C103_path_gaps_violated",
    "Avoidance.Landing.C103_area_partial",
    "Avoidance.Landing.C103_area_offset_violated",
    "Avoidance.Landing.C103_area_middle_violated",
    "Avoidance.Landing.C103_area_law_violated"
   ],
   "note": "The _partial theorems and C103_hsv, C103_cloud say exactly what is shown; that it tells the truth is false of the code: C103_std_dev_violated, C103_counter_violated, C103_message_lags_violated, C103_path_gaps_violated, C103_area_offset_violated, C103_area_middle_violated."
  },
  {
   "property": "C104",
   "status": "partial",
   "theorems": [
    "Avoidance.Global.C104_told",
    "Avoidance.Global.C104_defined",
    "Avoidance.Global.C104_no_map_violated",
    "Avoidance.Global.C104_altitude_violated",
    "Avoidance.Global.C104_effect",
    "Avoidance.Global.C104_harmless_partial",
    "Avoidance.Global.C104_forgotten_partial",
    "Avoidance.Global.C104_changes_answers_violated",
    "Avoidance.Global.C104_value_violated",
    "Avoidance.Global.C104_neighbors_partial",
    "Avoidance.Global.C104_neighbors_violated"
   ],
   "note": "C104_told, C104_defined and C104_effect say exactly what is told, when, and what changes; C104_harmless_partial and C104_forgotten_partial: no effect unless an obstacle point or a parameter arrives before the next map. That it always answers and never has an effect is false of the code: C104_no_map_violated, C104_altitude_violated, C104_changes_answers_violated, C104_value_violated, C104_neighbors_violated."
  },
  {
   "property": "C105",
   "status": "partial",
   "theorems": [
    "Avoidance.C105_only_shows",
    "Avoidance.C105_setpoints",
    "Avoidance.C105_lines",
    "Avoidance.C105_flown_partial",
    "Avoidance.C105_newest_piece",
    "Avoidance.C105_flown_gaps_violated",
    "Avoidance.C105_first_line_violated",
    "Avoidance.C105_colours",
    "Avoidance.C105_colour_violated",
    "Avoidance.C105_colour_next",
    "Avoidance.C105_arrow_violated",
    "Avoidance.C105_offtrack_violated"
   ],
   "note": "C105_only_shows, C105_setpoints, C105_lines, C105_flown_partial, C105_newest_piece, C105_colours and C105_colour_next say exactly what is drawn in every history. That the drawing is complete, and in the colour of the mode, is false of the code: C105_flown_gaps_violated, C105_first_line_violated, C105_arrow_violated, C105_colour_violated, C105_offtrack_violated."
  },
  {
   "property": "C106",
   "status": "proved",
   "theorems": [
    "Avoidance.Landing.C106_fresh_grids",
    "Avoidance.Landing.C106_landing_measured",
    "Avoidance.Landing.C106_never_undefined",
    "Avoidance.Landing.C106_blind_landing_witness"
   ],
   "note": "C106_landing_measured is the claim, for every run of the two nodes; C106_fresh_grids and C106_never_undefined the two side claims. C106_blind_landing_witness: the evidence may be old."
  },
  {
   "property": "C107",
   "status": "proved",
   "theorems": [
    "Avoidance.Landing.C107_lands_near_patch",
    "Avoidance.Landing.C107_lands_on_measured_ground",
    "Avoidance.Landing.C107_small_patch_witness",
    "Avoidance.Landing.C107_other_scale_witness"
   ],
   "note": "C107_lands_near_patch and C107_lands_on_measured_ground are the two claims; C107_small_patch_witness shows that the condition on the patch size is needed, C107_other_scale_witness that the one on unchanged sizes is."
  },
  {
   "property": "C108",
   "status": "partial",
   "theorems": [
    "Avoidance.Global.C108_cloud_partial",
    "Avoidance.Global.C108_cloud_undefined_violated",
    "Avoidance.Global.C108_kept_partial",
    "Avoidance.Global.C108_charged_partial",
    "Avoidance.Global.C108_until_next_map_violated",
    "Avoidance.Global.C108_unknown_cell_violated"
   ],
   "note": "C108_cloud_partial: the cells of a cloud; C108_kept_partial: what counts as seen, over runs; C108_charged_partial: what it costs from the next map on. Violated: until the next map (C108_until_next_map_violated), where the map knows nothing (C108_unknown_cell_violated), points that are partly not finite (C108_cloud_undefined_violated)."
  },
  {
   "property": "C109",
   "status": "proved",
   "theorems": [
    "Avoidance.Landing.C109_flat_ground_lands",
    "Avoidance.Landing.C109_enough_clouds"
   ],
   "note": "C109_flat_ground_lands: the run; C109_enough_clouds: a number of clouds is enough whatever the filter held. The configurations: those in which a flat neighbourhood meets the limits (true of the defaults of the two cfg files)."
  },
  {
   "property": "C110",
   "status": "partial",
   "theorems": [
    "Avoidance.C110_straight_to_goal_partial",
    "Avoidance.C110_forgotten",
    "Avoidance.C110_two_nodes_violated",
    "Avoidance.C110_two_nodes_witness"
   ],
   "note": "C110_straight_to_goal_partial: the messages; C110_forgotten: the memory. Missing: false of the code for paths of exactly two nodes (C110_two_nodes_violated, with a run that reaches it: C110_two_nodes_witness): such a path is never used up and a clear view never clears it, so the vehicle is sent towards its end, past it and back, for ever."
  },
  {
   "property": "C111",
   "status": "proved",
   "theorems": [
    "Avoidance.Global.C111_no_way",
    "Avoidance.Global.C111_finds",
    "Avoidance.Global.C111_no_last_resort"
   ],
   "note": "C111_no_way, C111_finds: the first search; C111_no_last_resort: the legs of the last resort."
  },
  {
   "property": "C112",
   "status": "partial",
   "theorems": [
    "Avoidance.C112_steep_goal_witness",
    "Avoidance.C112_reaches_goal_partial",
    "Avoidance.C112_steep_goal_violated"
   ],
   "note": "C112_reaches_goal_partial: monotone approach, the amount per round and the number of rounds, with runs of every length that meet the hypotheses (ReachGoalExamples). Missing: false of the code for goals nearly straight above or below (C112_steep_goal_violated, with runs of every length that reach it: C112_steep_goal_witness): the speed is scaled by the field of view in the azimuth of the direction of flight, which for a vertical direction means nothing, and the yaw is not changed for it, so a vehicle at rest may be told to stay where it is for ever."
  },
  {
   "property": "C113",
   "status": "partial",
   "theorems": [
    "Avoidance.Global.C113_around_goal_violated",
    "Avoidance.Global.C113_path_is_flown_partial",
    "Avoidance.Global.C113_last_pose_partial",
    "Avoidance.Global.C113_arrives_partial",
    "Avoidance.Global.C113_reaches_goal_partial"
   ],
   "note": "C113_path_is_flown_partial (end of the path), C113_last_pose_partial (approach to the last pose), C113_arrives_partial (both), C113_reaches_goal_partial (in runs from the start of the node, with C101: the radius of the goal); flights of every length and a complete run that meet the hypotheses in GpArriveExamples. Missing: false of the code for a vehicle that covers more than a metre between two commands (C113_around_goal_violated: overshoot behind the last pose and back, for ever); planning cycles in between, after which another path is followed."
  },
  {
   "property": "C114",
   "status": "partial",
   "theorems": [
    "Avoidance.C114_never_reached_witness",
    "Avoidance.C114_climbs_partial",
    "Avoidance.C114_never_reached_violated",
    "Avoidance.C114_climb_ends",
    "Avoidance.C114_reached_means"
   ],
   "note": "C114_climbs_partial (the climb and how long it takes), C114_climb_ends, C114_reached_means; flights of every length that meet the hypotheses in ClimbExamples. Missing: false of the code: the end of the climb is reached only by a vehicle that flies beyond a setpoint (C114_never_reached_violated, witness C114_never_reached_witness). The climb is shown without the smoothing of the setpoints, which the default configuration switches on."
  },
  {
   "property": "C115",
   "status": "partial",
   "theorems": [
    "Avoidance.C115_overshoot_witness",
    "Avoidance.C115_other_place_witness",
    "Avoidance.C115_descent",
    "Avoidance.C115_comes_down",
    "Avoidance.C115_other_place_violated",
    "Avoidance.C115_takes_off_partial",
    "Avoidance.C115_overshoot_violated"
   ],
   "note": "C115_descent, C115_comes_down (landing), C115_takes_off_partial (take-off straight below the goal, without smoothing); flights of every length that meet the hypotheses in LandTakeoffExamples. Missing: false of the code: C115_other_place_violated (witness C115_other_place_witness) and C115_overshoot_violated (witness C115_overshoot_witness)."
  },
  {
   "property": "C116",
   "status": "partial",
   "theorems": [
    "Avoidance.C116_ever_faster_witness",
    "Avoidance.C116_bounded",
    "Avoidance.C116_ever_faster_violated"
   ],
   "note": "C116_bounded; flights of every length that meet its hypotheses in SmoothSpeedExamples. Missing: that the published position keeps to the speed asked for: false of the code, C116_ever_faster_violated (witness C116_ever_faster_witness)."
  },
  {
   "property": "C117",
   "status": "partial",
   "theorems": [
    "Avoidance.Global.C117_cloud",
    "Avoidance.Global.C117_origin_violated",
    "Avoidance.Global.C117_node"
   ],
   "note": "C117_cloud, C117_node. Missing: that the cloud shows nothing but the wall: false of the code, C117_origin_violated."
  },
  {
   "property": "C118",
   "status": "partial",
   "theorems": [
    "Avoidance.C118_edges_partial",
    "Avoidance.C118_negative_violated",
    "Avoidance.C118_negative_witness",
    "Avoidance.C118_above_violated",
    "Avoidance.C118_range"
   ],
   "note": "C118_edges_partial, C118_range. Missing: negative angles, points above, the own position: false of the code, C118_negative_violated (witness C118_negative_witness), C118_above_violated."
  },
  {
   "property": "C119",
   "status": "partial",
   "theorems": [
    "Avoidance.C119_no_descent_witness",
    "Avoidance.C119_climbs",
    "Avoidance.C119_no_descent_violated"
   ],
   "note": "C119_climbs. Missing: the descent at home: false of the code, C119_no_descent_violated (witness C119_no_descent_witness). The climb is proved without smoothing."
  },
  {
   "property": "C120",
   "status": "partial",
   "theorems": [
    "Avoidance.Landing.C120_never_undefined_partial",
    "Avoidance.Landing.C120_too_small_violated",
    "Avoidance.Landing.C120_safe_iff",
    "Avoidance.Landing.C120_coarse_witness",
    "Avoidance.Landing.C120_unsmoothed_witness"
   ],
   "note": "C120_never_undefined_partial: for every history in which the patches are non-empty and fit into the grids, under reconfigurations at any time; C120_safe_iff: for the configurations at start-up that is exact. Missing: the other accepted configurations, false of the code (C120_too_small_violated; C120_coarse_witness, C120_unsmoothed_witness). The visualisation (C48, C103) and the replay of recorded grids (C46) are not part of the histories."
  },
  {
   "property": "C121",
   "status": "partial",
   "theorems": [
    "Avoidance.C121_always_plans_partial",
    "Avoidance.C121_zero_children_violated",
    "Avoidance.C121_childless_witness"
   ],
   "note": "C121_always_plans_partial for at least one child per node. Missing: 0 children per node, false of the code (C121_zero_children_violated, C121_childless_witness)."
  },
  {
   "property": "C122",
   "status": "partial",
   "theorems": [
    "Avoidance.Global.C122_undefined_exactly_partial",
    "Avoidance.Global.C122_never_stops_partial",
    "Avoidance.Global.C122_search_inside_table_partial",
    "Avoidance.Global.C122_outside_table_violated",
    "Avoidance.Global.C122_hover_hangs_violated"
   ],
   "note": "Exact set of undefined callbacks (C122_undefined_exactly_partial), every sequence of callbacks can be executed with a minimum overestimation above 1 (C122_never_stops_partial), searches do not depend on the memory outside the table for maximum altitudes up to 25.5 cells, small enough maximum risk and goals at indices 0 to 24 (C122_search_inside_table_partial). Missing: minimum overestimation 1 and higher altitudes, false of the code (C122_hover_hangs_violated, C122_outside_table_violated)."
  },
  {
   "property": "C123",
   "status": "proved",
   "theorems": [
    "Avoidance.C123_wrap180",
    "Avoidance.C123_wrapPolar",
    "Avoidance.C123_index",
    "Avoidance.C123_index_inside",
    "Avoidance.C123_index_round_trip",
    "Avoidance.C123_exact_agrees",
    "Avoidance.C123_angleDifference",
    "Avoidance.C123_binary32_accurate",
    "Avoidance.C123_leaves_range_witness",
    "Avoidance.C123_across_the_cut_witness",
    "Avoidance.C123_huge_angle_witness",
    "Avoidance.C123_mPiF",
    "Avoidance.C123_yaw_rate"
   ],
   "note": "For every accurate arithmetic; single precision is one (C123_binary32_accurate). The range [-180,180) itself is left in single precision (C123_leaves_range_witness), the clamped cell can be the one across the cut (C123_across_the_cut_witness), and for angles of some 10^18 degrees the conversion to int is undefined (C123_huge_angle_witness). Overflow and underflow are not modelled."
  },
  {
   "property": "C124",
   "status": "partial",
   "theorems": [
    "Avoidance.C124_enters_partial",
    "Avoidance.C124_lands_partial",
    "Avoidance.C124_direct_beyond_violated",
    "Avoidance.C124_offboard_descends_violated",
    "Avoidance.C124_offboard_never_reached_violated",
    "Avoidance.C124_smoothing_stands_violated",
    "Avoidance.C124_direct_beyond_witness"
   ],
   "note": "Landing and the return home are proved: after two rounds the generator descends (C124_enters_partial) and it goes on doing so, stopping where it was last fast (C124_lands_partial). False in offboard mode: it descends for ever below the vehicle, whatever the goal (C124_offboard_descends_violated, and with any smoothing C124_offboard_never_reached_violated). With smoothing on, the default, a vehicle that hovers never leaves for the goal (C124_smoothing_stands_violated); without it direct flight is wrong too: the setpoint is speed times the whole way to the goal ahead (C124_direct_beyond_violated, C124_direct_beyond_witness)."
  },
  {
   "property": "C125",
   "status": "partial",
   "theorems": [
    "Avoidance.C125_published_below_violated",
    "Avoidance.C125_descends_violated",
    "Avoidance.C125_with_a_number",
    "Avoidance.C125_no_cost_violated",
    "Avoidance.C125_candidates_violated",
    "Avoidance.C125_plan_down_violated",
    "Avoidance.C125_setpoint_below_violated",
    "Avoidance.C125_flight_down_violated"
   ],
   "note": "False of the code: every entry of the cost matrix is NaN (C125_no_cost_violated), the candidates are the first cells of the matrix, all 87 degrees downwards (C125_candidates_violated), the plan is one step down (C125_plan_down_violated), and so is the setpoint taken from it, whatever the cloud and the goal (C125_flight_down_violated, C125_setpoint_below_violated); the generator publishes a point within eight degrees of straight below (C125_published_below_violated), round after round as long as such plans are made (C125_descends_violated). The conversion of NaN to int in polarToHistogramIndex is undefined in C++; its value is a parameter and the theorems hold for every value. For a goal with a height the model is the one of C28 and the other planner properties (C125_with_a_number)."
  }
 ]
}