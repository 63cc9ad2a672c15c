{
 "C06": {
  "status": "partial",
  "note": "The expected round trip is false of the code (height is mirrored): exact mirrored value, witness, and round trip for points at the origin's height."
 },
 "C11": {
  "status": "partial",
  "note": "False of the code when the camera opening straddles the wrap-around or exceeds it; witnesses given; exact equivalence proved under the non-wrapping hypothesis."
 },
 "C18": {
  "status": "proved",
  "note": "Includes the exact success condition; the single-entry failure is a witness theorem."
 },
 "C19": {
  "status": "partial",
  "note": "False of the code in general (key not injective, witness); injective for source names not containing the separator."
 },
 "C41": {
  "status": "proved",
  "note": "Exact condition for sending waypoints; findings proved as negative theorems: a hover status is never accompanied by waypoints, loiter is never commanded through hover, termination is revoked."
 },
 "C47": {
  "status": "partial",
  "note": "Proved: landing only after an evaluation that found a landable patch, with the evidence needed, entered only near the goal and left only by reset; landing place proved when the waypoint and the order to land stay the same in between (C47_lands_at_patch_partial; from the ground's point of view: C107). The unrestricted place claim is false of the code: C47_unchecked_landing_witness."
 },
 "C48": {
  "status": "proved",
  "note": "Exact for the evaluation. Findings: grid smaller than the patch, and the visualisation's hard-coded centre, are out of range (proved)."
 },
 "C49": {
  "status": "proved",
  "note": "Finding: the stale vertical velocity and undefined goal height survive the reset (C49_stale_velocity_witness)."
 },
 "C50": {
  "status": "partial",
  "note": "The expected property is false of the code (misplaced parenthesis): exact condition and witness proved."
 },
 "C51": {
  "status": "proved",
  "note": "Patch size 0, which the configuration permits, is undefined behaviour (part of C51_defined_iff)."
 },
 "C45": {
  "status": "proved",
  "note": "Exact conditions; findings as witness theorems (zero limits, empty cells, border cells)."
 },
 "C46": {
  "status": "proved",
  "note": "Findings: start-up bias and replayed grids of another size (witness theorems)."
 },
 "C71": {
  "status": "partial",
  "note": "Status exact, heartbeat bound, fresh transformation per run for every interleaving. New message per run proved for prompt workers only (false in general: C71_same_message_for_ever_violated); C71_lost_message_violated, C71_silent_while_waiting, C71_termination_revoked, C71_startup_race_violated are findings."
 },
 "C52": {
  "status": "proved",
  "note": "Cell/position conversions exact. Finding: the neighbour from a yaw (C52_neighbor_from_yaw_violated)."
 },
 "C54": {
  "status": "proved",
  "note": "Findings as negative theorems: the node swaps the two parameters; the simplified edge is not re-checked against the map."
 },
 "C55": {
  "status": "proved",
  "note": "Exact schedule, budget, result and termination condition; the non-terminating and the no-search configurations are negative theorems."
 },
 "C56": {
  "status": "proved",
  "note": "Findings: one cell forgotten on the way back (C56_go_back_forgets_cell_violated), nothing recorded before the first goal."
 },
 "C57": {
  "status": "partial",
  "note": "Freshness proved for histories of maps and queries and the weaker guarantee for all histories; false in general: C57_stale_violated, C57_wrong_map_violated."
 },
 "C58": {
  "status": "partial",
  "note": "Mission goal kept at the bottom of the stack over every run of positions, velocities and planning; the cases in which it is lost or altered are the _violated theorems."
 },
 "C60": {
  "status": "proved",
  "note": "Bounds, symmetry, monotonicity, in-range table access; findings: prior below ground and risk-heuristic index."
 },
 "C61": {
  "status": "proved",
  "note": "Geometry and speed profile; finding: the acceleration functions ignore the duration."
 },
 "C67": {
  "status": "proved",
  "note": "Exact on all histories without the special command; with it the two goals can differ for good (witness)."
 },
 "C68": {
  "status": "proved",
  "note": "Finding: below the loiter height the vehicle is sent further down (witness)."
 },
 "C73": {
  "status": "proved",
  "note": "Finding: the turn heuristic overestimates even at factor 1."
 },
 "C74": {
  "status": "partial",
  "note": "Proved except for first move along x, second along y, where it is false (C74_quarter_turn_free_violated, C74_vertical_move_violated)."
 },
 "C75": {
  "status": "partial",
  "note": "Proved for flat edges below layer 9 with the shipped limits and bounded risk for the rest; false in general: see the _violated theorems."
 },
 "C76": {
  "status": "partial",
  "note": "Shape, unit steps and cell risks proved; altitude limit and the risk of three cells are violated (theorems)."
 },
 "C77": {
  "status": "partial",
  "note": "Exact setpoint, speed law and monotonicity; overshoot, NaN at the goal and the void switch are violations (theorems)."
 },
 "C78": {
  "status": "proved",
  "note": "Finding: the yaw test is void except at exactly half a turn (C78_yaw_check_violated)."
 },
 "C79": {
  "status": "partial",
  "note": "Successful plans proved; behaviour after a failed plan is a violation (two theorems)."
 },
 "C89": {
  "status": "partial",
  "note": "Race freedom proved for the guarded data (C89_race_free_partial); for twelve data a race is reached (C89_races_violated), so the full property is false of the code."
 },
 "C90": {
  "status": "proved",
  "note": "Liveness under fairness for all schedules; the two ways in which a single notification is lost are shown (C90_cloud_not_noticed_violated, C90_frame_not_noticed_violated)."
 },
 "C91": {
  "status": "proved",
  "note": "The node with its planner, waypoint generator and watchdog as one transition system (NodeRun); two findings beside it (C91_previous_goal_uninitialised_violated, C91_reconfigured_goal_violated)."
 },
 "C92": {
  "status": "partial",
  "note": "Full property false: avoidanceOutput::cruise_velocity is uninitialised until the first plan (C92_uninitialised_speed_violated). Proved if that memory is not a number or within the limits."
 },
 "C93": {
  "status": "partial",
  "note": "Full property false: setpoints straight to the goal without regard to what was seen (C93_straight_to_obstacle_violated, C93_used_up, C93_direct). Proved for the plan (C93_first_leg, C93_plan_defined) and for every setpoint while it is followed (C93_setpoint_partial)."
 },
 "C94": {
  "status": "partial",
  "note": "Full property false: mean distances hide near obstacles (C94_near_obstacle_shown_far_violated) and an obstacle within the minimum range reads free (C94_close_obstacle_shown_free_violated). Proved: exact contents of the message (C94_bins), when it is sent (C94_when), an obstacle seen is shown within the sensor range (C94_reported_partial), every distance shown is backed by measured points (C94_true_alarm)."
 },
 "C95": {
  "status": "proved",
  "note": "The finding C95_position_gap concerns the setpoints, not the status."
 },
 "C96": {
  "status": "partial",
  "note": "False of the code in two places, shown by C96_histogram_image_header_violated and C96_heading_violated; all the rest is proved."
 },
 "C97": {
  "status": "partial",
  "note": "False of the code for the direction of the distance triangles (C97_distances_offset_violated); all the rest is proved."
 },
 "C99": {
  "status": "partial",
  "note": "C99_unload_partial needs that no other thread keeps a mutex for ever; without it the claim is false (C99_unload_hangs_violated). What follows the return of the destructor, and the landing planner node, are shown to be wrong (C99_terminates_violated, C99_landing_never_ends_violated)."
 },
 "C100": {
  "status": "partial",
  "note": "C100_map_partial and C100_risks_partial give the exact settings under which map and risks are free of races; the rest of the claim is false of the code (C100_races_violated, C100_landing_violated)."
 },
 "C101": {
  "status": "partial",
  "note": "The _partial theorems give what holds of every run; the claim that setpoints lead only through permitted cells is false of the code: C101_occupied_start_violated, C101_blocked_path_flown_violated and C101_late_goal_violated."
 },
 "C102": {
  "status": "partial",
  "note": "The _partial theorems say exactly what is published and shown; that the screen shows the world of the file is false of the code: C102_removed_object_violated, C102_missing_file_violated, C102_socket_violated, C102_environment_violated."
 },
 "C103": {
  "status": "partial",
  "note": "The _partial theorems and C103_hsv, C103_cloud say exactly what is shown; that it tells the truth is false of the code: C103_std_dev_violated, C103_counter_violated, C103_message_lags_violated, C103_path_gaps_violated, C103_area_offset_violated, C103_area_middle_violated."
 },
 "C104": {
  "status": "partial",
  "note": "C104_told, C104_defined and C104_effect say exactly what is told, when, and what changes; C104_harmless_partial and C104_forgotten_partial: no effect unless an obstacle point or a parameter arrives before the next map. That it always answers and never has an effect is false of the code: C104_no_map_violated, C104_altitude_violated, C104_changes_answers_violated, C104_value_violated, C104_neighbors_violated."
 },
 "C105": {
  "status": "partial",
  "note": "C105_only_shows, C105_setpoints, C105_lines, C105_flown_partial, C105_newest_piece, C105_colours and C105_colour_next say exactly what is drawn in every history. That the drawing is complete, and in the colour of the mode, is false of the code: C105_flown_gaps_violated, C105_first_line_violated, C105_arrow_violated, C105_colour_violated, C105_offtrack_violated."
 },
 "C106": {
  "status": "proved",
  "note": "C106_landing_measured is the claim, for every run of the two nodes; C106_fresh_grids and C106_never_undefined the two side claims. C106_blind_landing_witness: the evidence may be old."
 },
 "C107": {
  "status": "proved",
  "note": "C107_lands_near_patch and C107_lands_on_measured_ground are the two claims; C107_small_patch_witness shows that the condition on the patch size is needed, C107_other_scale_witness that the one on unchanged sizes is."
 },
 "C108": {
  "status": "partial",
  "note": "C108_cloud_partial: the cells of a cloud; C108_kept_partial: what counts as seen, over runs; C108_charged_partial: what it costs from the next map on. Violated: until the next map (C108_until_next_map_violated), where the map knows nothing (C108_unknown_cell_violated), points that are partly not finite (C108_cloud_undefined_violated)."
 },
 "C109": {
  "status": "proved",
  "note": "C109_flat_ground_lands: the run; C109_enough_clouds: a number of clouds is enough whatever the filter held. The configurations: those in which a flat neighbourhood meets the limits (true of the defaults of the two cfg files)."
 },
 "C110": {
  "status": "partial",
  "note": "C110_straight_to_goal_partial: the messages; C110_forgotten: the memory. Missing: false of the code for paths of exactly two nodes (C110_two_nodes_violated, with a run that reaches it: C110_two_nodes_witness): such a path is never used up and a clear view never clears it, so the vehicle is sent towards its end, past it and back, for ever."
 },
 "C111": {
  "status": "proved",
  "note": "C111_no_way, C111_finds: the first search; C111_no_last_resort: the legs of the last resort."
 },
 "C112": {
  "status": "partial",
  "note": "C112_reaches_goal_partial: monotone approach, the amount per round and the number of rounds, with runs of every length that meet the hypotheses (ReachGoalExamples). Missing: false of the code for goals nearly straight above or below (C112_steep_goal_violated, with runs of every length that reach it: C112_steep_goal_witness): the speed is scaled by the field of view in the azimuth of the direction of flight, which for a vertical direction means nothing, and the yaw is not changed for it, so a vehicle at rest may be told to stay where it is for ever."
 },
 "C113": {
  "status": "partial",
  "note": "C113_path_is_flown_partial (end of the path), C113_last_pose_partial (approach to the last pose), C113_arrives_partial (both), C113_reaches_goal_partial (in runs from the start of the node, with C101: the radius of the goal); flights of every length and a complete run that meet the hypotheses in GpArriveExamples. Missing: false of the code for a vehicle that covers more than a metre between two commands (C113_around_goal_violated: overshoot behind the last pose and back, for ever); planning cycles in between, after which another path is followed."
 },
 "C114": {
  "status": "partial",
  "note": "C114_climbs_partial (the climb and how long it takes), C114_climb_ends, C114_reached_means; flights of every length that meet the hypotheses in ClimbExamples. Missing: false of the code: the end of the climb is reached only by a vehicle that flies beyond a setpoint (C114_never_reached_violated, witness C114_never_reached_witness). The climb is shown without the smoothing of the setpoints, which the default configuration switches on."
 },
 "C115": {
  "status": "partial",
  "note": "C115_descent, C115_comes_down (landing), C115_takes_off_partial (take-off straight below the goal, without smoothing); flights of every length that meet the hypotheses in LandTakeoffExamples. Missing: false of the code: C115_other_place_violated (witness C115_other_place_witness) and C115_overshoot_violated (witness C115_overshoot_witness)."
 },
 "C116": {
  "status": "partial",
  "note": "C116_bounded; flights of every length that meet its hypotheses in SmoothSpeedExamples. Missing: that the published position keeps to the speed asked for: false of the code, C116_ever_faster_violated (witness C116_ever_faster_witness)."
 },
 "C117": {
  "status": "partial",
  "note": "C117_cloud, C117_node. Missing: that the cloud shows nothing but the wall: false of the code, C117_origin_violated."
 },
 "C118": {
  "status": "partial",
  "note": "C118_edges_partial, C118_range. Missing: negative angles, points above, the own position: false of the code, C118_negative_violated (witness C118_negative_witness), C118_above_violated."
 },
 "C119": {
  "status": "partial",
  "note": "C119_climbs. Missing: the descent at home: false of the code, C119_no_descent_violated (witness C119_no_descent_witness). The climb is proved without smoothing."
 },
 "C120": {
  "status": "partial",
  "note": "C120_never_undefined_partial: for every history in which the patches are non-empty and fit into the grids, under reconfigurations at any time; C120_safe_iff: for the configurations at start-up that is exact. Missing: the other accepted configurations, false of the code (C120_too_small_violated; C120_coarse_witness, C120_unsmoothed_witness). The visualisation (C48, C103) and the replay of recorded grids (C46) are not part of the histories."
 },
 "C121": {
  "status": "partial",
  "note": "C121_always_plans_partial for at least one child per node. Missing: 0 children per node, false of the code (C121_zero_children_violated, C121_childless_witness)."
 },
 "C122": {
  "status": "partial",
  "note": "Exact set of undefined callbacks (C122_undefined_exactly_partial), every sequence of callbacks can be executed with a minimum overestimation above 1 (C122_never_stops_partial), searches do not depend on the memory outside the table for maximum altitudes up to 25.5 cells, small enough maximum risk and goals at indices 0 to 24 (C122_search_inside_table_partial). Missing: minimum overestimation 1 and higher altitudes, false of the code (C122_hover_hangs_violated, C122_outside_table_violated)."
 },
 "C123": {
  "status": "proved",
  "note": "For every accurate arithmetic; single precision is one (C123_binary32_accurate). The range [-180,180) itself is left in single precision (C123_leaves_range_witness), the clamped cell can be the one across the cut (C123_across_the_cut_witness), and for angles of some 10^18 degrees the conversion to int is undefined (C123_huge_angle_witness). Overflow and underflow are not modelled."
 },
 "C01": {
  "status": "proved",
  "note": "In exact arithmetic. In single precision the range [-180,180) is left by a last digit (C123_leaves_range_witness); C123 bounds by how much."
 },
 "C02": {
  "status": "proved",
  "note": "In exact arithmetic; with rounding see C123_angleDifference."
 },
 "C03": {
  "status": "proved",
  "note": "In exact arithmetic; with rounding see C123_wrapPolar."
 },
 "C04": {
  "status": "proved",
  "note": "In exact arithmetic; with rounding see C123_index, C123_index_inside, C123_index_round_trip."
 },
 "C08": {
  "status": "proved",
  "note": "In exact arithmetic; with rounding see C123_yaw_rate."
 },
 "C124": {
  "status": "partial",
  "note": "Landing and the return home are proved: after two rounds the generator descends (C124_enters_partial) and it goes on doing so, stopping where it was last fast (C124_lands_partial). False in offboard mode: it descends for ever below the vehicle, whatever the goal (C124_offboard_descends_violated, and with any smoothing C124_offboard_never_reached_violated). With smoothing on, the default, a vehicle that hovers never leaves for the goal (C124_smoothing_stands_violated); without it direct flight is wrong too: the setpoint is speed times the whole way to the goal ahead (C124_direct_beyond_violated, C124_direct_beyond_witness)."
 },
 "C125": {
  "status": "partial",
  "note": "False of the code: every entry of the cost matrix is NaN (C125_no_cost_violated), the candidates are the first cells of the matrix, all 87 degrees downwards (C125_candidates_violated), the plan is one step down (C125_plan_down_violated), and so is the setpoint taken from it, whatever the cloud and the goal (C125_flight_down_violated, C125_setpoint_below_violated); the generator publishes a point within eight degrees of straight below (C125_published_below_violated), round after round as long as such plans are made (C125_descends_violated). The conversion of NaN to int in polarToHistogramIndex is undefined in C++; its value is a parameter and the theorems hold for every value. For a goal with a height the model is the one of C28 and the other planner properties (C125_with_a_number)."
 }
}