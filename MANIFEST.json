{
 "claims": [
  {
   "property": "C01",
   "status": "proved",
   "theorems": [
    "Ndt.c01_scan_barycenter_never_stale"
   ],
   "note": "Exact reals."
  },
  {
   "property": "C02",
   "status": "proved",
   "theorems": [
    "Ndt.c02_cell_statistics_are_batch",
    "Ndt.c02_cell_order_irrelevant"
   ],
   "note": "Exact reals; holds for any interleaving with compute too."
  },
  {
   "property": "C03",
   "status": "proved",
   "theorems": [
    "Ndt.c03_cell_covariance_is_sample_covariance",
    "Ndt.c03_cell_covariance_psd",
    "Ndt.c03_cell_history_irrelevant",
    "Ndt.c03_cell_few_points",
    "Ndt.c03_cell_compute_idempotent"
   ],
   "note": "Exact reals."
  },
  {
   "property": "C04",
   "status": "proved",
   "theorems": [
    "Ndt.c04_cell_score_is_gaussian",
    "Ndt.c04_cell_score_is_likelihood",
    "Ndt.c04_cell_score_unimodal",
    "Ndt.c04_cell_score_few_points"
   ],
   "note": "Exact reals; for cells built by public calls and computed."
  },
  {
   "property": "C05",
   "status": "partial",
   "theorems": [
    "Ndt.c05_cell_score_nan_iff_all_same",
    "Ndt.c05_cell_score_nan_witness",
    "Ndt.c05_cell_score_number_partial"
   ],
   "note": "Refuted: NaN exactly when five or more copies of one point (c05_cell_score_nan_iff_all_same, witness); the rest proved."
  },
  {
   "property": "C06",
   "status": "partial",
   "theorems": [
    "Ndt.c06_constructor_covers",
    "Ndt.c06_index_exact_partial",
    "Ndt.c06_same_cell_iff_same_square_partial",
    "Ndt.c06_index_memory_safe_partial",
    "Ndt.c06_far_and_nan_points_fault",
    "Ndt.c06_wrapped_grid_out_of_bounds"
   ],
   "note": "Proved for grids of at most 2^31 cells and points less than 2^32 cells away; refuted beyond: far or NaN points are undefined float-to-unsigned conversions, larger grids wrap the int index and read out of bounds."
  },
  {
   "property": "C07",
   "status": "proved",
   "theorems": [
    "Ndt.c07_cell_receives_points_of_its_square",
    "Ndt.c07_cell_statistics_and_total",
    "Ndt.c07_scan_order_irrelevant"
   ],
   "note": "Exact reals; points less than 2^32 cells away, at most 2^31 cells (C06)."
  },
  {
   "property": "C08",
   "status": "proved",
   "theorems": [
    "Ndt.c08_mean_in_square"
   ],
   "note": "Exact reals; same size limits as C06."
  },
  {
   "property": "C09",
   "status": "proved",
   "theorems": [
    "Ndt.c09_point_likelihood_bounded",
    "Ndt.c09_point_likelihood_support",
    "Ndt.c09_list_likelihood",
    "Ndt.c09_scan_likelihood_is_moved_points"
   ],
   "note": "Exact reals; same size limits as C06."
  },
  {
   "property": "C10",
   "status": "proved",
   "theorems": [
    "Ndt.c10_cell_information"
   ],
   "note": "Exact reals."
  },
  {
   "property": "C11",
   "status": "proved",
   "theorems": [
    "Ndt.c11_in_range_points_land_in_the_map",
    "Ndt.c11_no_scans_is_undefined"
   ],
   "note": "Exact reals; positive resolution, non-negative range_max, at most 2^31 cells; the empty scan set is shown to be undefined behaviour."
  },
  {
   "property": "C12",
   "status": "proved",
   "theorems": [
    "Ndt.c12_beam_indices",
    "Ndt.c12_all_beams_used",
    "Ndt.c12_samples_are_points"
   ],
   "note": "For fewer than 2^64 points; the index expression is i*n/m in exact reals."
  },
  {
   "property": "C13",
   "status": "proved",
   "theorems": [
    "Ndt.c13_match_returns_best_candidate",
    "Ndt.c13_match_defined"
   ],
   "note": "Any grid, including NaN candidates; exact reals for offsets."
  },
  {
   "property": "C14",
   "status": "proved",
   "theorems": [
    "Ndt.c14_correction_inside_window"
   ],
   "note": "Exact reals."
  },
  {
   "property": "C15",
   "status": "proved",
   "theorems": [
    "Ndt.c15_match_not_worse_than_score"
   ],
   "note": "Exact reals; NaN and infinite candidates included."
  },
  {
   "property": "C16",
   "status": "partial",
   "theorems": [
    "Ndt.c16_match_covariance_formula",
    "Ndt.c16_match_covariance_psd_partial",
    "Ndt.c16_covariance_sign_witness",
    "Ndt.c16_covariance_error"
   ],
   "note": "Refuted: the outer product of the mean is added, not subtracted (c16_covariance_sign_witness, exact error in c16_covariance_error); NaN without overlap. Symmetric and positive semi-definite proved when there is overlap."
  },
  {
   "property": "C17",
   "status": "proved",
   "theorems": [
    "Ndt.c17_matcher_without_map_is_inert",
    "Ndt.c17_addScans_makes_map"
   ],
   "note": "Any call history."
  },
  {
   "property": "C18",
   "status": "partial",
   "theorems": [
    "Ndt.c18_score_normalised_partial",
    "Ndt.c18_match_normalised_partial",
    "Ndt.c18_empty_scan_scores_nan",
    "Ndt.c18_match_normalised_any_map",
    "Ndt.c18_score_any_map_partial"
   ],
   "note": "Refuted for scans without points (0/0 = NaN, c18_empty_scan_scores_nan). matchScan: proved in [-1,0] on every map for every scan with a usable beam. scoreScan: NaN or in [-1,0] on every map; a number on maps without degenerate squares."
  },
  {
   "property": "C19",
   "status": "proved",
   "theorems": [
    "Ndt.c19_leaf_count_is_distinct_bins",
    "Ndt.c19_leaf_count_order_irrelevant",
    "Ndt.c19_histories_defined"
   ],
   "note": "Exact reals; keys that fit an int (c19_histories_defined gives a sufficient range)."
  },
  {
   "property": "C20",
   "status": "proved",
   "theorems": [
    "Ndt.c20_leaf_values",
    "Ndt.c20_total_weight"
   ],
   "note": "Weights may be any value, including NaN; same range as C19."
  },
  {
   "property": "C21",
   "status": "proved",
   "theorems": [
    "Ndt.c21_particle_count_within_limits",
    "Ndt.c21_resample_at_most_max",
    "Ndt.c21_resample_defined",
    "Ndt.c21_other_operations_defined"
   ],
   "note": "For histories without undefined behaviour; c21_*_defined say when there is none."
  },
  {
   "property": "C22",
   "status": "partial",
   "theorems": [
    "Ndt.c22_weights_form_distribution_partial",
    "Ndt.c22_zero_scores_give_nan"
   ],
   "note": "Refuted: a measurement scoring zero everywhere makes every weight NaN; proved for informative histories."
  },
  {
   "property": "C23",
   "status": "proved",
   "theorems": [
    "Ndt.c23_statistics_of_weighted_particles",
    "Ndt.c23_mean_in_bounding_box",
    "Ndt.c23_covariance_psd"
   ],
   "note": "Exact reals; reachable states whose weights form a distribution."
  },
  {
   "property": "C24",
   "status": "partial",
   "theorems": [
    "Ndt.c24_heading_variance_accumulates",
    "Ndt.c24_heading_variance_first_operation_partial",
    "Ndt.c24_heading_variance_witness"
   ],
   "note": "Refuted: the heading variance is never reset and adds up over operations (general law and witness); proved for the first operation after construction."
  },
  {
   "property": "C25",
   "status": "proved",
   "theorems": [
    "Ndt.c25_resampled_particles_are_old",
    "Ndt.c25_kld_stopping_rule"
   ],
   "note": "The bound is rounded down by the code: more than bound minus one particles."
  },
  {
   "property": "C26",
   "status": "partial",
   "theorems": [
    "Ndt.c26_resampled_weights_are_old",
    "Ndt.c26_equal_weights_stay_equal_partial",
    "Ndt.c26_resample_keeps_weights_witness"
   ],
   "note": "Refuted: resampled particles keep their old weights (general law and witness); equal weights stay equal."
  },
  {
   "property": "C27",
   "status": "proved",
   "theorems": [
    "Ndt.c27_particle_cloud_is_faithful"
   ],
   "note": "Exact reals; toMsg and getYaw of tf2 modelled."
  },
  {
   "property": "C28",
   "status": "proved",
   "theorems": [
    "Ndt.c28_noise_free_motion_is_composition",
    "Ndt.c28_small_motion_along_heading",
    "Ndt.c28_any_noise_shape"
   ],
   "note": "Exact reals."
  },
  {
   "property": "C29",
   "status": "proved",
   "theorems": [
    "Ndt.c29_fifth_coefficient_has_no_effect",
    "Ndt.c29_sigmas_are_real",
    "Ndt.c29_no_motion_no_noise",
    "Ndt.c29_rotation_magnitude",
    "Ndt.c29_reverse_same_noise",
    "Ndt.c29_noise_law"
   ],
   "note": "Exact reals."
  },
  {
   "property": "C30",
   "status": "proved",
   "theorems": [
    "Ndt.c30_normalize_angle_correct",
    "Ndt.c30_normalised_angle_unique",
    "Ndt.c30_idempotent_periodic"
   ],
   "note": "Exact reals."
  },
  {
   "property": "C31",
   "status": "proved",
   "theorems": [
    "Ndt.c31_constraint_reproduces_relative_pose"
   ],
   "note": "Exact reals."
  },
  {
   "property": "C32",
   "status": "proved",
   "theorems": [
    "Ndt.c32_fresh_constraint_has_zero_error",
    "Ndt.c32_frame_independent",
    "Ndt.c32_full_turns_do_not_matter"
   ],
   "note": "Exact reals."
  },
  {
   "property": "C33",
   "status": "proved",
   "theorems": [
    "Ndt.c33_information_is_inverse",
    "Ndt.c33_information_definite",
    "Ndt.c33_singular_covariance"
   ],
   "note": "Exact reals; a singular covariance gives no finite entry (c33_singular_covariance)."
  },
  {
   "property": "C34",
   "status": "partial",
   "theorems": [
    "Ndt.c34_weight_is_cholesky_factor",
    "Ndt.c34_cost_of_residual",
    "Ndt.c34_cost_is_mahalanobis_iff_diagonal_partial",
    "Ndt.c34_correlated_information_witness"
   ],
   "note": "Refuted: residuals are weighted by L instead of its transpose; the cost is the Mahalanobis form exactly when the information is diagonal (witness for a correlated one)."
  },
  {
   "property": "C35",
   "status": "proved",
   "theorems": [
    "Ndt.c35_failure_changes_nothing",
    "Ndt.c35_success_takes_solver_poses"
   ],
   "note": "Ceres is an oracle for the poses and the verdict."
  },
  {
   "property": "C36",
   "status": "proved",
   "theorems": [
    "Ndt.c36_each_constraint_once",
    "Ndt.c36_optimize_defined"
   ],
   "note": "For a growing graph; calls that abort inside Ceres are excluded and characterised."
  },
  {
   "property": "C37",
   "status": "proved",
   "theorems": [
    "Ndt.c37_optimises_from_current_poses",
    "Ndt.c37_first_scan_fixed",
    "Ndt.c37_distinct_ids_distinct_keys",
    "Ndt.c37_unconstrained_first_scan_aborts"
   ],
   "note": "Scan ids below 2^31 so that the int keys are distinct; an unconstrained first scan aborts (shown)."
  },
  {
   "property": "C38",
   "status": "proved",
   "theorems": [
    "Ndt.c38_save_load_lossless"
   ],
   "note": "Any interleaving of the two topics; rosbag2 and the message types are modelled as exact."
  },
  {
   "property": "C39",
   "status": "proved",
   "theorems": [
    "Ndt.c39_find_nearest_exact",
    "Ndt.c39_find_nearest_defined_iff",
    "Ndt.c39_loop_candidates"
   ],
   "note": "nanoflann by contract: exact k nearest for any visiting order; limit at most the number of scans."
  },
  {
   "property": "C40",
   "status": "partial",
   "theorems": [
    "Ndt.c40_returned_iff_below_sqrt_partial",
    "Ndt.c40_unit_distance_partial",
    "Ndt.c40_distance_not_in_metres"
   ],
   "note": "Refuted: the squared distance is compared with the limit, so the radius is its square root."
  },
  {
   "property": "C41",
   "status": "proved",
   "theorems": [
    "Ndt.c41_markers_mirror_graph",
    "Ndt.c41_marker_ids_distinct",
    "Ndt.c41_markers_defined"
   ],
   "note": "Distinct marker ids for scan ids below 2^31."
  },
  {
   "property": "C42",
   "status": "partial",
   "theorems": [
    "Ndt.c42_render_inside_partial",
    "Ndt.c42_growing_history_defined_partial",
    "Ndt.c42_pose_outside_writes_out_of_bounds"
   ],
   "note": "Refuted: the position of a scan is not part of the bounds, so rays can start outside the arrays (witness). Proved for growing, unmoved scans with points on all sides of the sensor."
  },
  {
   "property": "C43",
   "status": "proved",
   "theorems": [
    "Ndt.c43_ray_path",
    "Ndt.c43_no_hang"
   ],
   "note": "All integer cells; the int arithmetic does not overflow below 2^28 cells (larger rays are modelled as a fault)."
  },
  {
   "property": "C44",
   "status": "partial",
   "theorems": [
    "Ndt.c44_hit_cell_partial",
    "Ndt.c44_end_is_the_hit_partial",
    "Ndt.c44_band_misses_the_end",
    "Ndt.c44_wrong_hit_witness"
   ],
   "note": "Refuted for |dy| < |dx| <= 2|dy|: the hit goes to the neighbouring cell and the measured cell is not touched (exact law and witness); proved for all other rays."
  },
  {
   "property": "C45",
   "status": "proved",
   "theorems": [
    "Ndt.c45_cell_values",
    "Ndt.c45_three_values",
    "Ndt.c45_render_order_independent",
    "Ndt.c45_fresh_order_independent"
   ],
   "note": "Grids whose extents hold points and positions of the scans, less than 2^31 cells; order independence for the first message of a grid object and for equal bounds."
  },
  {
   "property": "C46",
   "status": "partial",
   "theorems": [
    "Ndt.c46_never_shrinks",
    "Ndt.c46_growing_history_covers_partial",
    "Ndt.c46_fresh_grid_covers",
    "Ndt.c46_moved_scan_not_covered",
    "Ndt.c46_smaller_map_not_covered"
   ],
   "note": "Refuted: moved scans and smaller reloaded maps are not covered (witnesses). Proved: never shrinks; growing, unmoved scans and fresh grids are covered."
  },
  {
   "property": "C47",
   "status": "partial",
   "theorems": [
    "Ndt.c47_forward_beams_partial",
    "Ndt.c47_inverted_beams_partial",
    "Ndt.c47_inverted_first_beam_dropped",
    "Ndt.c47_inverted_empty_message_out_of_bounds",
    "Ndt.c47_minus_infinity_becomes_a_point",
    "Ndt.c47_range_limit"
   ],
   "note": "Refuted for inverted lasers (the first beam is dropped, an empty message is read out of bounds) and for ranges of minus infinity; proved for the normal mounting without minus infinities, and which beams an inverted laser keeps."
  },
  {
   "property": "C48",
   "status": "proved",
   "theorems": [
    "Ndt.c48_projection_at_rest",
    "Ndt.c48_projection_at_rest_inverted",
    "Ndt.c48_distance_from_laser"
   ],
   "note": "Exact reals; both mountings."
  },
  {
   "property": "C49",
   "status": "partial",
   "theorems": [
    "Ndt.c49_compensation_law",
    "Ndt.c49_compensation_partial",
    "Ndt.c49_heading_ignored",
    "Ndt.c49_wrapped_heading",
    "Ndt.c49_last_beam_share",
    "Ndt.c49_inverted_time_reversed"
   ],
   "note": "Refuted: translation not turned into the frame of the robot, heading difference not normalised, inverted lasers run backwards in time, the last beam does not get the full movement. Proved for heading zero or turning on the spot without wrap, with beam i of n at the share i/n."
  },
  {
   "property": "C50",
   "status": "proved",
   "theorems": [
    "Ndt.c50_not_localised_no_change",
    "Ndt.c50_requires_localisation",
    "Ndt.c50_only_pose_localises",
    "Ndt.c50_pose_accepted"
   ],
   "note": "All schedules of executor and publisher; the loop closure thread is not part of laser processing and is treated in C59-C62."
  },
  {
   "property": "C51",
   "status": "proved",
   "theorems": [
    "Ndt.c51_processed_only_after_travel",
    "Ndt.c51_ignored_without_travel",
    "Ndt.c51_processed_after_travel"
   ],
   "note": "Exact reals; the first message may set up range limit, mounting and matchers even when ignored."
  },
  {
   "property": "C52",
   "status": "proved",
   "theorems": [
    "Ndt.c52_prediction_keeps_transform",
    "Ndt.c52_prediction_is_composition",
    "Ndt.c52_zero_correction_localisation"
   ],
   "note": "Exact reals."
  },
  {
   "property": "C53",
   "status": "proved",
   "theorems": [
    "Ndt.c53_transform_consistent"
   ],
   "note": "Exact reals; for the pair of poses read at that moment."
  },
  {
   "property": "C54",
   "status": "proved",
   "theorems": [
    "Ndt.c54_other_bits_ignored",
    "Ndt.c54_configure_effect",
    "Ndt.c54_save_changes_nothing"
   ],
   "note": "All 2^32 action words."
  },
  {
   "property": "C55",
   "status": "proved",
   "theorems": [
    "Ndt.c55_ids_are_indices",
    "Ndt.c55_old_graphs",
    "Ndt.c55_saved_maps_are_well_formed"
   ],
   "note": "All schedules and all callbacks, from an empty graph or a saved graph numbered by index; in particular every graph saved by the mapper."
  },
  {
   "property": "C56",
   "status": "proved",
   "theorems": [
    "Ndt.c56_linked_back",
    "Ndt.c56_connected"
   ],
   "note": "Every state in which no laser callback is between its two critical sections, from an empty or linked map."
  },
  {
   "property": "C57",
   "status": "partial",
   "theorems": [
    "Ndt.c57_window_partial",
    "Ndt.c57_window_is_ten",
    "Ndt.c57_window_out_of_bounds",
    "Ndt.c57_every_other_depth_fails"
   ],
   "note": "Refuted: the window always has ten scans once the graph exceeds rolling_depth, and the iterator leaves the vector when the graph is shorter than ten. Proved for depth 10 and for graphs not longer than the depth. For every other depth there is a reachable state (a robot driving straight on) in which the claim fails: undefined behaviour below nine, ten scans otherwise."
  },
  {
   "property": "C58",
   "status": "partial",
   "theorems": [
    "Ndt.c58_typical_in_range_partial",
    "Ndt.c58_nan_for_ever",
    "Ndt.c58_nan_score",
    "Ndt.c58_node_typical_in_range_partial",
    "Ndt.c58_scan_without_points_disables_loop_closure",
    "Ndt.c58_node_nan_reachable"
   ],
   "note": "Refuted end to end: a laser message without usable beams makes the response NaN for ever, reachable with default parameters. Proved for the whole node (mapper with NDT matchers) while matched scans have a point."
  },
  {
   "property": "C59",
   "status": "proved",
   "theorems": [
    "Ndt.c59_loops_span_the_window",
    "Ndt.c59_new_constraints",
    "Ndt.c59_accepted_by_score"
   ],
   "note": "Graphs of fewer than 2^31 scans (the int subtraction); the response is read when the candidate is judged."
  },
  {
   "property": "C60",
   "status": "partial",
   "theorems": [
    "Ndt.c60_in_order",
    "Ndt.c60_not_the_first_window",
    "Ndt.c60_none_left_out",
    "Ndt.c60_attempts_bounded_partial",
    "Ndt.c60_zero_limit_not_respected"
   ],
   "note": "Refuted for global_search_limit 0, which wraps to 2^64-1 attempts. Proved: in order, once, none left out, none in the first window, at most the limit for a positive limit; a disappointing candidate (continue) does not count."
  },
  {
   "property": "C61",
   "status": "partial",
   "theorems": [
    "Ndt.c61_spacing_partial",
    "Ndt.c61_first_run_partial",
    "Ndt.c61_wraps_after_load"
   ],
   "note": "Refuted after a load: the index of the last optimised scan is kept, the unsigned difference wraps and the optimiser runs at once. Proved while no map is loaded."
  },
  {
   "property": "C62",
   "status": "partial",
   "theorems": [
    "Ndt.c62_disabled_partial",
    "Ndt.c62_filter_partial",
    "Ndt.c62_who_alters_partial",
    "Ndt.c62_filter_map_is_altered",
    "Ndt.c62_disabling_does_not_stop_a_round"
   ],
   "note": "Refuted for the particle filter with mapping left enabled (the default): loop closure still corrects poses and adds constraints; and a loop closure round under way continues after mapping is disabled. Proved: nothing changes from a state with mapping disabled and the loop closure thread asleep, and which steps alter the map at all."
  },
  {
   "property": "C63",
   "status": "partial",
   "theorems": [
    "Ndt.c63_ends_are_scans_partial",
    "Ndt.c63_at_most_one_ahead_partial",
    "Ndt.c63_no_index_out_of_range_partial",
    "Ndt.c63_constraint_before_its_scan",
    "Ndt.c63_constraint_of_another_map"
   ],
   "note": "Refuted: a constraint is pushed before its scan in another critical section, and a map loaded while the loop closure thread is matching gets a constraint of the old map (witness schedules). Proved: the end is at most one ahead and only while a laser callback is between its sections; no index out of range in between when maps are loaded only while the loop closure thread sleeps."
  },
  {
   "property": "C64",
   "status": "proved",
   "theorems": [
    "Ndt.c64_grid_not_lost",
    "Ndt.c64_markers_not_lost",
    "Ndt.c64_published_within_five_steps",
    "Ndt.c64_later_graphs_hold_it",
    "Ndt.c64_announcements"
   ],
   "note": "All schedules, sequentially consistent memory (map_update_available_ is a plain bool; the data race itself is not modelled); pushes that announce nothing (initial pose) are listed by c64_announcements."
  },
  {
   "property": "C65",
   "status": "proved",
   "theorems": [
    "Ndt.c65_waiting_thread_owns_nothing",
    "Ndt.c65_locking_is_defined",
    "Ndt.c65_no_deadlock",
    "Ndt.c65_released_soon",
    "Ndt.c65_mutual_exclusion"
   ],
   "note": "All schedules of the control flow graphs of the three threads; every branch is possible; exceptions that leave a callback end the process and are not followed."
  },
  {
   "property": "C66",
   "status": "partial",
   "theorems": [
    "Ndt.c66_laser_callback_has_its_matchers",
    "Ndt.c66_waits_partial",
    "Ndt.c66_loop_closure_without_matcher"
   ],
   "note": "Refuted for a map given at start (map_file): the loop closure thread dereferences the null global matcher before the first laser scan. Proved for a mapper started with a graph no longer than the rolling depth and no load before the first laser message; the laser callback itself always has its matchers."
  },
  {
   "property": "C67",
   "status": "partial",
   "theorems": [
    "Ndt.c67_load_keeps_bookkeeping",
    "Ndt.c67_fresh_partial",
    "Ndt.c67_loaded_scans_are_skipped",
    "Ndt.c67_reloaded_map_not_searched",
    "Ndt.c67_solver_keeps_old_problem"
   ],
   "note": "Refuted: counters, solver problem and grid are kept; loaded scans are skipped by loop closure, a smaller map is not searched, the solver keeps the old constraints. Proved: exactly what is reset, and that a fresh process with a map at start agrees with the loaded graph."
  },
  {
   "property": "C68",
   "status": "partial",
   "theorems": [
    "Ndt.c68_pointers_stay_valid",
    "Ndt.c68_indices_in_range_partial",
    "Ndt.c68_load_during_a_round"
   ],
   "note": "Refuted when a smaller map is loaded during a loop closure round (index out of range, witness). Proved: pointers never dangle in any history; indices stay in range when maps are loaded only between rounds."
  },
  {
   "property": "C69",
   "status": "partial",
   "theorems": [
    "Ndt.c69_constraints_partial",
    "Ndt.c69_scans_partial",
    "Ndt.c69_poses_partial",
    "Ndt.c69_race_on_enable_mapping",
    "Ndt.c69_race_on_map_update",
    "Ndt.c69_race_on_poses",
    "Ndt.c69_race_on_scans",
    "Ndt.c69_race_on_graph_pointer",
    "Ndt.c69_race_on_scan_poses",
    "Ndt.c69_race_on_typical_response"
   ],
   "note": "Refuted: reachable races on enable_mapping_, map_update_available_, the previous poses, the scan list, the graph pointer, poses of scans and the typical response (witness schedules). Proved: no race on the constraint list, and on scans and previous poses apart from the listed unlocked places."
  },
  {
   "property": "C70",
   "status": "partial",
   "theorems": [
    "Ndt.c70_poses_belong_together_partial",
    "Ndt.c70_torn_transform"
   ],
   "note": "Refuted: the initial pose callback stores the two poses without the lock, and a transform of neither pair can be published in between (witness). Proved at every other moment, for all histories and schedules."
  },
  {
   "property": "C71",
   "status": "partial",
   "theorems": [
    "Ndt.c71_destroy_waits_for_shutdown",
    "Ndt.c71_ends_after_shutdown_partial",
    "Ndt.c71_finished_stays_partial"
   ],
   "note": "Refuted: without a process shutdown the destructor never returns (c71_destroy_waits_for_shutdown). Proved once the process shuts down."
  },
  {
   "property": "C72",
   "status": "partial",
   "theorems": [
    "Ndt.c72_region_partial",
    "Ndt.c72_the_scan_after_is_left_out"
   ],
   "note": "Refuted: std::max/min on an exclusive end iterator leaves the scan after out, in every reachable state (c72_the_scan_after_is_left_out). Proved: the map is exactly the candidate and the scan before it."
  },
  {
   "property": "C73",
   "status": "partial",
   "theorems": [
    "Ndt.c73_whole_map_partial",
    "Ndt.c73_not_after_disabling",
    "Ndt.c73_not_after_loading"
   ],
   "note": "Proved if mapping is off from the start and no map is loaded at run time. Refuted after disabling mapping and after loading a map at run time."
  },
  {
   "property": "C74",
   "status": "partial",
   "theorems": [
    "Ndt.c74_localising_without_map_is_undefined",
    "Ndt.c74_localising_without_map_reachable",
    "Ndt.c74_map_of_scans_is_built"
   ],
   "note": "Refuted for an empty graph (c74_localising_without_map_is_undefined, reachable with default parameters); proved for maps with at least one scan whose points are within range and at most 2^31 cells."
  },
  {
   "property": "C75",
   "status": "proved",
   "theorems": [
    "Ndt.c75_local_correction_bounded",
    "Ndt.c75_global_correction_bounded",
    "Ndt.c75_loop_correction_bounded"
   ],
   "note": ""
  },
  {
   "property": "C76",
   "status": "partial",
   "theorems": [
    "Ndt.c76_nan_covariance_nan_residual",
    "Ndt.c76_information_numbers_iff_partial",
    "Ndt.c76_given_pose_information_partial",
    "Ndt.c76_no_overlap_nan_information",
    "Ndt.c76_nan_information_reachable"
   ],
   "note": "Refuted: a scan that overlaps nothing gives a NaN covariance, hence a NaN information matrix and a NaN residual at every pair of poses (reachable with two laser messages without a usable beam and default parameters). The exact condition for numbers is proved: all likelihoods numbers and the positive ones not in one plane through the zero offset."
  },
  {
   "property": "C77",
   "status": "partial",
   "theorems": [
    "Ndt.c77_robot_is_at_newest_scan_partial",
    "Ndt.c77_constraint_is_motion_iff",
    "Ndt.c77_loop_closure_leaves_robot_behind",
    "Ndt.c77_robot_left_behind"
   ],
   "note": "Refuted: a loop closure of the newest scan (or an optimisation) moves the scan but not prev_robot_pose_, and the next odometry constraint then contains the jump (c77_robot_left_behind, c77_constraint_is_motion_iff). Proved until the first loop closure for mappers that start without a map and keep mapping."
  },
  {
   "property": "C78",
   "status": "proved",
   "theorems": [
    "Ndt.c78_map_is_moved_odometry",
    "Ndt.c78_transform_never_changes"
   ],
   "note": "Exact reals. What is published between the moment the first scan enters the graph and the end of its callback is still computed from the poses before (c78_transform_never_changes is about executions after that callback)."
  },
  {
   "property": "C79",
   "status": "proved",
   "theorems": [
    "Ndt.c79_beam_indices",
    "Ndt.c79_all_beams_used",
    "Ndt.c79_in_range_points_land_in_the_map"
   ],
   "note": "Doubles without overflow to infinity; \"within range\" is measured by the computed (rounded) offset of the point from the scan's position."
  },
  {
   "property": "C80",
   "status": "partial",
   "theorems": [
    "Ndt.c80_within_window",
    "Ndt.c80_ends_partial",
    "Ndt.c80_tiny_resolution_hangs",
    "Ndt.c80_default_rounds",
    "Ndt.c80_default_search_misses_zero"
   ],
   "note": "Window and (for resolutions not below the precision of the size) termination are proved. Refuted: a positive resolution below the precision never ends the loop; with the default parameters 0.05 and 0.005 the loops over x and y have 21 rounds and never visit zero, so the uncorrected pose is not among the candidates (the premise of C15 fails in doubles)."
  },
  {
   "property": "C81",
   "status": "partial",
   "theorems": [
    "Ndt.c81_points_inside_partial",
    "Ndt.c81_aligned_bounds_move"
   ],
   "note": "Coverage is proved for one axis (the other is the same code; C126 has both) within the stated limits. The second half is refuted: with the default resolution 0.05 the bound -0.15 is moved to -0.20 by the next update; the grid can grow without new data."
  },
  {
   "property": "C82",
   "status": "partial",
   "theorems": [
    "Ndt.c82_control_is_odometry_motion",
    "Ndt.c82_filter_told_odometry_motion_partial",
    "Ndt.c82_noise_free_particles_follow_odometry_partial",
    "Ndt.c82_empty_map_moves_standing_robot"
   ],
   "note": "Proved when the map has a scan. Refuted for an empty map that was loaded while running: the scan gets the pose (0,0,0), so the filter of a standing robot is told to move to the origin (c82_empty_map_moves_standing_robot)."
  },
  {
   "property": "C83",
   "status": "partial",
   "theorems": [
    "Ndt.c83_pose_is_mean_of_particles_partial",
    "Ndt.c83_weights_are_scores_partial",
    "Ndt.c83_scan_without_beams_gives_nan"
   ],
   "note": "Proved whenever the pose is a number. Refuted otherwise: a scan without a usable beam gives every particle the score 0/0, the weights and the mean become NaN, and the node goes on with that pose (c83_scan_without_beams_gives_nan)."
  },
  {
   "property": "C84",
   "status": "proved",
   "theorems": [
    "Ndt.c84_initial_pose_recentres_filter",
    "Ndt.c84_other_poses_change_nothing"
   ],
   "note": "The message, setRobot and setOdom are consecutive inputs. Variances below 0 are left out: they make the particles NaN (C105)."
  },
  {
   "property": "C85",
   "status": "partial",
   "theorems": [
    "Ndt.c85_work_is_defined_partial",
    "Ndt.c85_keeps_running_partial"
   ],
   "note": "Holds for a node without particle filter that was started without a map, with a window of at least ten scans. Left out are cases in which other claims show the code to run into undefined behaviour: grids that cannot be drawn (C42), work on all constraints between adding a constraint and its scan (C63), maps given at the start or loaded (C66, C68), windows of fewer than ten scans (C57), unreadable laser messages (C47), localising before anything was mapped (C74), and the particle filter (C73, C83). Exact reals."
  },
  {
   "property": "C86",
   "status": "partial",
   "theorems": [
    "Ndt.c86_localisation_is_defined_partial",
    "Ndt.c86_keeps_running_partial"
   ],
   "note": "Proved for ordinary inputs within bounds. Missing are inputs for which the code does run into undefined behaviour or NaN: grids that cannot be drawn (C42), maps loaded and mapping enabled at run time (C66, C68), empty maps (C74), unreadable laser messages (C47), a mean that is not a number (C83), negative variances or noise coefficients (C105)."
  },
  {
   "property": "C87",
   "status": "proved",
   "theorems": [
    "Ndt.c87_rounds_end",
    "Ndt.c87_rounds_go_on",
    "Ndt.c87_callbacks_end"
   ],
   "note": "Steps are the atomic pieces of the model; each of them ends as the functions it calls do (C43, C80 for the loops of rendering and searching)."
  },
  {
   "property": "C88",
   "status": "proved",
   "theorems": [
    "Ndt.c88_files_stay",
    "Ndt.c88_saved_map_comes_back",
    "Ndt.c88_restart_with_saved_map",
    "Ndt.c88_saving_leaves_the_map",
    "Ndt.c88_load_goes_first",
    "Ndt.c88_refines"
   ],
   "note": "rosbag2 is taken to return what was written, each topic in order, and to throw when opening a missing bag for reading or an existing one for writing. Ends of constraints are below 2^64."
  },
  {
   "property": "C89",
   "status": "partial",
   "theorems": [
    "Ndt.c89_no_saving_over",
    "Ndt.c89_missing_file_ends",
    "Ndt.c89_saving_twice_ends",
    "Ndt.c89_requests_partial",
    "Ndt.c89_own_files_are_typed_partial"
   ],
   "note": "Refuted: loading a name without a bag and saving under a name that is taken (in particular a second time, or over the file the map came from) throw, nothing catches it, and the node ends. What holds: loading an existing file with messages of the right types and saving under a free name are always carried out."
  },
  {
   "property": "C90",
   "status": "partial",
   "theorems": [
    "Ndt.c90_upside_down_is_seen",
    "Ndt.c90_upright_is_level",
    "Ndt.c90_upright_beam",
    "Ndt.c90_inverted_beam",
    "Ndt.c90_flat_is_exact",
    "Ndt.c90_points_partial",
    "Ndt.c90_tilted_is_mirrored"
   ],
   "note": "Proved for mountings level to the threshold (0.02 in x and y) and for those upside down and level to 3.3 degrees; every laser that looks down is treated as inverted; level mountings are exact. Refuted for a laser pitched by more than 2.3 degrees: it is treated as inverted though it looks up, and its left is put on its right (`c90_tilted_is_mirrored`)."
  },
  {
   "property": "C91",
   "status": "proved",
   "theorems": [
    "Ndt.c91_heading_is_yaw",
    "Ndt.c91_scale",
    "Ndt.c91_planar",
    "Ndt.c91_empty",
    "Ndt.c91_straight_up_is_half_a_turn_off",
    "Ndt.c91_within_half_a_turn"
   ],
   "note": ""
  },
  {
   "property": "C92",
   "status": "partial",
   "theorems": [
    "Ndt.c92_end_is_last_beam_partial",
    "Ndt.c92_empty_message_is_undefined",
    "Ndt.c92_negative_stamp_throws",
    "Ndt.c92_refines",
    "Ndt.c92_times_add_no_faults",
    "Ndt.c92_end_unused"
   ],
   "note": "Proved for messages with a beam and plausible times; every callback is then one of the model without times and the times add no faults. Refuted for an empty message (ranges.size() - 1 wraps to 2^64 - 1, and the product with the increment does not fit into 64 bits: undefined conversion) and for stamps before 1970 (an exception leaves the callback)."
  },
  {
   "property": "C93",
   "status": "partial",
   "theorems": [
    "Ndt.c93_expected_copies",
    "Ndt.c93_equal_weights_unbiased_partial",
    "Ndt.c93_best_particle_gains",
    "Ndt.c93_unbiased_iff"
   ],
   "note": "The expected number of copies is right. Refuted for the weights: drawn particles keep their old weights, so the best particle expects more weight after every resampling of at least two draws (c93_best_particle_gains); resampling is unbiased exactly when all weights are equal (c93_unbiased_iff)."
  },
  {
   "property": "C94",
   "status": "partial",
   "theorems": [
    "Ndt.c94_taken_as_given_partial",
    "Ndt.c94_negative_is_enormous",
    "Ndt.c94_long_is_cut",
    "Ndt.c94_as_given_iff",
    "Ndt.c94_each_is_used_for_what_it_is",
    "Ndt.c94_negative_depth_never_closes",
    "Ndt.c94_negative_limit_never_optimises",
    "Ndt.c94_negative_particles_end"
   ],
   "note": "Used as given exactly from 0 to 2^31 - 1 (c94_as_given_iff). Refuted otherwise: negative numbers become enormous, longer ones are cut. A negative rolling_depth switches loop closure off in every execution, an optimization_node_limit of -1 the optimisation, and a negative number of particles ends the node at the start."
  },
  {
   "property": "C95",
   "status": "partial",
   "theorems": [
    "Ndt.c95_published_is_the_map_partial",
    "Ndt.c95_changes_are_announced_partial",
    "Ndt.c95_announcement_comes",
    "Ndt.c95_given_pose_is_not_published"
   ],
   "note": "Refuted for poses given to a mapping node: poseCallback adds a scan and a constraint without raising the flag (c95_given_pose_is_not_published). Proved for all executions without such poses, including that announcements come after at most two steps of the thread."
  },
  {
   "property": "C96",
   "status": "partial",
   "theorems": [
    "Ndt.c96_localised_iff",
    "Ndt.c96_empty_map_never_localised",
    "Ndt.c96_way_out"
   ],
   "note": "Refuted: while mapping, a pose is taken exactly if some scan is within the square root of ten metres (c96_localised_iff); with an empty map none is, and nothing but switching mapping off again or loading a map helps (c96_empty_map_never_localised). c96_way_out: switching off, giving the pose and switching on again always works."
  },
  {
   "property": "C97",
   "status": "partial",
   "theorems": [
    "Ndt.c97_enable_mapping",
    "Ndt.c97_disable_mapping",
    "Ndt.c97_save_map",
    "Ndt.c97_load_map",
    "Ndt.c97_no_file_name",
    "Ndt.c97_save_then_load",
    "Ndt.c97_disable_enable_does_not_resume"
   ],
   "note": "Refuted in one point: after disable_mapping.py and enable_mapping.py the robot counts as lost and no laser message is mapped until a pose is given (c97_disable_enable_does_not_resume). Everything else proved; names that exist already or do not exist end the node, see C89."
  },
  {
   "property": "C98",
   "status": "partial",
   "theorems": [
    "Ndt.c98_mean_accurate",
    "Ndt.c98_covariance_accurate",
    "Ndt.c98_score_at_most_one_partial",
    "Ndt.c98_score_can_be_infinite"
   ],
   "note": "Error bounds for mean (6 n 2^-53 B) and covariance (80 n 2^-53 B^2) proved for every cell. Scores from zero to one proved for cells spread in every direction by a variance of at least 400 n 2^-53 B^2. Refuted otherwise: five points with y = 5.3 get a negative variance and an infinite score 12.5 cm beside them (c98_score_can_be_infinite)."
  },
  {
   "property": "C99",
   "status": "proved",
   "theorems": [
    "Ndt.c99_map_is_what_the_scans_are",
    "Ndt.c99_order_of_scans"
   ],
   "note": "In real arithmetic (C98 bounds the effect of rounding); maps of at most 2^31 cells, points within range_max of their robot pose."
  },
  {
   "property": "C100",
   "status": "proved",
   "theorems": [
    "Ndt.c100_matching_is_the_same_elsewhere"
   ],
   "note": "In real arithmetic; both maps have at most 2^31 cells, points within range_max, coordinates that a double can hold."
  },
  {
   "property": "C101",
   "status": "partial",
   "theorems": [
    "Ndt.c101_size_is_what_is_needed_partial",
    "Ndt.c101_map_reaches_to_the_origin"
   ],
   "note": "Violated: the upper corner of the box starts from numeric_limits<double>::min(), which is positive, so that to the left of or below the origin the map reaches to the origin (c101_map_reaches_to_the_origin, with an example of more than 100 cells where 1 is enough). Proved if the scans reach above zero in both coordinates."
  },
  {
   "property": "C102",
   "status": "partial",
   "theorems": [
    "Ndt.c102_points_are_measurements_partial",
    "Ndt.c102_zero_range_is_a_point",
    "Ndt.c102_unanswered_beams_switch_matching_off"
   ],
   "note": "Violated: range_min is never read; a range of zero becomes a point at the place of the laser (c102_zero_range_is_a_point). Five of them alone in a square of the map make every candidate of a scan with a point there NaN, and matching returns the pose it was given (c102_unanswered_beams_switch_matching_off). Proved for messages without numbers below range_min."
  },
  {
   "property": "C103",
   "status": "partial",
   "theorems": [
    "Ndt.c103_beams_land_in_the_map_partial",
    "Ndt.c103_full_range_beam_is_lost"
   ],
   "note": "Violated for a laser that is mounted a cell or more away from the middle of the robot: the range limit is measured from the laser, the box of the map from the robot (c103_full_range_beam_is_lost). Proved for a robot at rest and beams that are shorter than the limit by the distance of the laser from the middle."
  },
  {
   "property": "C104",
   "status": "proved",
   "theorems": [
    "Ndt.c104_jacobian_is_the_derivative",
    "Ndt.c104_quotient_rule",
    "Ndt.c104_blind_to_common_motion_only",
    "Ndt.c104_anchor_leaves_nothing_free",
    "Ndt.c104_gradient_of_the_cost",
    "Ndt.c104_no_derivative_at_half_turn",
    "Ndt.c104_for_the_weight_of_the_code"
   ],
   "note": "c104_jacobian_is_the_derivative, c104_for_the_weight_of_the_code, c104_gradient_of_the_cost, c104_blind_to_common_motion_only, c104_anchor_leaves_nothing_free; c104_no_derivative_at_half_turn says where there is none. Dual numbers over the reals with the operations of ceres/jet.h."
  },
  {
   "property": "C105",
   "status": "partial",
   "theorems": [
    "Ndt.c105_filter_of_numbers",
    "Ndt.c105_particles_are_poses_partial",
    "Ndt.c105_negative_variance_ends_in_undefined_behaviour",
    "Ndt.c105_negative_coefficient_ends_in_undefined_behaviour",
    "Ndt.c105_point_not_a_number",
    "Ndt.c105_heading_not_a_number"
   ],
   "note": "Refuted: an initial pose with a negative variance, or a negative coefficient, makes every particle NaN without complaint, and the next processed scan runs into an undefined conversion, whatever the scan and the map are. Proved for all histories without negative variances or coefficients (c105_filter_of_numbers shows Model/Filter then is the filter)."
  },
  {
   "property": "C106",
   "status": "partial",
   "theorems": [
    "Ndt.c106_loop_never_ends_iff",
    "Ndt.c106_search_ends_partial",
    "Ndt.c106_search_never_ends",
    "Ndt.c106_no_map_without_side",
    "Ndt.c106_no_map_negative_side",
    "Ndt.c106_empty_window",
    "Ndt.c106_map_never_grows",
    "Ndt.c106_second_scan_never_ends",
    "Ndt.c106_not_refused",
    "Ndt.c106_grid_without_side",
    "Ndt.c106_grid_negative_side",
    "Ndt.c106_no_error_permitted"
   ],
   "note": "Refuted: no parameter is checked. With a search step of zero or less the second scan of a map is never matched (the loop does not end; c106_second_scan_never_ends shows a reachable node, c106_map_never_grows holds in all executions); with squares of side zero no map can be built; with a window of no size the covariance is NaN; a grid of resolution zero or less cannot be rendered; a permitted error of zero makes resampling undefined. Proved: with steps greater than zero a search ends."
  },
  {
   "property": "C107",
   "status": "partial",
   "theorems": [
    "Ndt.c107_no_more_than_needed_partial",
    "Ndt.c107_one_bin_takes_the_most",
    "Ndt.c107_close_together",
    "Ndt.c107_further_apart",
    "Ndt.c107_surer_takes_more"
   ],
   "note": "Refuted: the number wanted starts at max_particles and is only computed from two bins on, so that a cloud in one bin always gets max_particles (c107_one_bin_takes_the_most, all histories and draws), and with the default parameters a cloud within five centimetres takes 500 particles, one spread over two places a metre apart less than 330. Proved: from two bins on no more than the bound asks for are drawn."
  },
  {
   "property": "C108",
   "status": "partial",
   "theorems": [
    "Ndt.c108_extent_of_a_bin",
    "Ndt.c108_same_bin_partial",
    "Ndt.c108_bin_at_zero",
    "Ndt.c108_number_depends_on_place",
    "Ndt.c108_headings_at_half_turn"
   ],
   "note": "Refuted: the division is truncated towards zero, so the bins at zero are twice as large in each coordinate (c108_extent_of_a_bin is the exact extent); a cloud around the origin takes 500 particles and the same cloud half a metre further less than 330; headings a hundredth of a radian apart at half a turn are 22 bins apart. Proved: in all other bins particles differ by less than the bin size."
  },
  {
   "property": "C109",
   "status": "partial",
   "theorems": [
    "Ndt.c109_robot_has_a_place_partial",
    "Ndt.c109_nothing_without_scans",
    "Ndt.c109_not_asked",
    "Ndt.c109_after_loading",
    "Ndt.c109_identity_until_placed",
    "Ndt.c109_old_transform_in_new_map",
    "Ndt.c109_first_scan"
   ],
   "note": "Refuted: whether the robot is localised is not asked before publishing (c109_not_asked). With a map given at the start the identity is published until an initial pose comes in, in every execution (c109_identity_until_placed); after a load the transform of the old map is published in the new one (c109_old_transform_in_new_map, c109_after_loading); while the first scan is being stored the identity is published whatever the odometry (c109_first_scan). Proved: without loads and outside of the two windows every transform is that of a pair that was arrived at together."
  },
  {
   "property": "C110",
   "status": "partial",
   "theorems": [
    "Ndt.c110_one_laser_partial",
    "Ndt.c110_mounting_not_asked",
    "Ndt.c110_range_not_asked",
    "Ndt.c110_second_laser"
   ],
   "note": "Refuted: the mounting and the largest range are those of the first message; later ones are never asked for (c110_mounting_not_asked, c110_range_not_asked), so that with two lasers, or one that is moved, beams are put in the wrong place (c110_second_laser). Proved: with one upright laser the points of every scan are exactly where its beams ended, in every execution."
  },
  {
   "property": "C111",
   "status": "proved",
   "theorems": [
    "Ndt.c111_optimising_changes_nothing",
    "Ndt.c111_constraints_agree",
    "Ndt.c111_map_does_not_move",
    "Ndt.c111_empty_information_lets_go"
   ],
   "note": "Ceres is assumed to return as usable only poses that cost no more than the ones it was given (Spec.NotWorse); at most 2^31 scans. c111_empty_information_lets_go shows why the information has to be definite."
  },
  {
   "property": "C112",
   "status": "proved",
   "theorems": [
    "Ndt.c112_angle_error",
    "Ndt.c112_angle_within_a_millionth",
    "Ndt.c112_points_within_a_millionth",
    "Ndt.c112_beams_keep_their_order",
    "Ndt.c112_beams_distinct",
    "Ndt.c112_tiny_increments_merge",
    "Ndt.c112_exact_angles"
   ],
   "note": "Single precision is modelled without an upper limit for the exponent and without fused operations."
  },
  {
   "property": "C113",
   "status": "proved",
   "theorems": [
    "Ndt.c113_initial_pose",
    "Ndt.c113_far_from_the_origin",
    "Ndt.c113_motion",
    "Ndt.c113_drift"
   ],
   "note": "The rest of the filter is in real numbers. The loss far from the origin is proved as such (c113_far_from_the_origin)."
  },
  {
   "property": "C114",
   "status": "proved",
   "theorems": [
    "Ndt.c114_dead_reckoning",
    "Ndt.c114_a_hundred_thousand_scans"
   ],
   "note": "The sum of zero corrections is exact; the corrections themselves are in real numbers elsewhere. Overflow is left out and products and sums are not fused."
  },
  {
   "property": "C115",
   "status": "partial",
   "theorems": [
    "Ndt.c115_weights",
    "Ndt.c115_mean",
    "Ndt.c115_mean_in_box",
    "Ndt.c115_covariance",
    "Ndt.c115_negative_variance"
   ],
   "note": "All but the last sentence proved. Refuted: three particles of weight 1/3 at x = 0.1 have a negative variance (c115_negative_variance). The heading is C131."
  },
  {
   "property": "C116",
   "status": "proved",
   "theorems": [
    "Ndt.c116_mean_heading_in_arc",
    "Ndt.c116_robot_faces_with_its_particles",
    "Ndt.c116_left_and_right"
   ],
   "note": "c116_left_and_right shows that a quarter turn is the limit: of particles facing left and right the mean faces ahead."
  },
  {
   "property": "C117",
   "status": "partial",
   "theorems": [
    "Ndt.c117_same_particles",
    "Ndt.c117_same_statistics",
    "Ndt.c117_resampling_partial",
    "Ndt.c117_scores_agree",
    "Ndt.c117_same_heading_variance"
   ],
   "note": "How many particles are drawn does depend on the frame (c108_number_depends_on_place), so that resampling gives the same particles only as far as both draw; and of headings that cancel out the mean heading is 0 in every frame."
  },
  {
   "property": "C118",
   "status": "partial",
   "theorems": [
    "Ndt.c118_steep_rays_partial",
    "Ndt.c118_flat_rays_partial",
    "Ndt.c118_more_than_a_cell_aside",
    "Ndt.c118_cells_near_the_beam_partial",
    "Ndt.c118_obstacle_reported_free"
   ],
   "note": "Steep rays (|dx| <= |dy|) keep to half a cell (c118_steep_rays_partial). On flat rays the code tests the error again after it has already been changed by the step in x, so cells up to one and a half cells aside are counted (c118_flat_rays_partial, attained beyond one cell by c118_more_than_a_cell_aside); c118_cells_near_the_beam_partial gives the bounds in metres. c118_obstacle_reported_free is a scan where a measured point lies in a cell that no other beam enters and the map shows the cell as free."
  },
  {
   "property": "C119",
   "status": "partial",
   "theorems": [
    "Ndt.c119_same_round_partial",
    "Ndt.c119_forgotten",
    "Ndt.c119_never_optimised"
   ],
   "note": "c119_same_round_partial: the optimiser runs when there are enough scans at the end of the very round in which the loop was closed. new_matches is a local variable of the round, so otherwise the closure is forgotten: c119_forgotten shows for every continuation, however many scans it adds, that the optimiser does not run until another loop is closed, and c119_never_optimised is a reachable state where this leaves a map that disagrees with its constraints."
  },
  {
   "property": "C120",
   "status": "proved",
   "theorems": [
    "Ndt.c120_publisher",
    "Ndt.c120_loop_closure",
    "Ndt.c120_executor"
   ],
   "note": ""
  },
  {
   "property": "C121",
   "status": "proved",
   "theorems": [
    "Ndt.c121_points_in_the_map",
    "Ndt.c121_points_of_a_message",
    "Ndt.c121_constraints"
   ],
   "note": ""
  },
  {
   "property": "C122",
   "status": "proved",
   "theorems": [
    "Ndt.c122_points_are_obstacles",
    "Ndt.c122_published_grid"
   ],
   "note": ""
  },
  {
   "property": "C123",
   "status": "partial",
   "theorems": [
    "Ndt.c123_first_of_the_best",
    "Ndt.c123_strictly_best_is_taken_partial",
    "Ndt.c123_wall_gives_no_hold",
    "Ndt.c123_pushed_along_the_wall",
    "Ndt.c123_own_map_pushes"
   ],
   "note": "Refuted: in a square whose points lie on one line the special case of Cell::compute divides the adjugate of the covariance by the limited determinant, so the information along the line is zero and every place along the line scores 1; among equal scores the search keeps the first, which is the one at -search_linear_size. Proved for every wall parallel to the x axis (c123_pushed_along_the_wall: correction (-linear_size, 0, 0), score -1) and for a scan against its own map with the default parameters (c123_own_map_pushes: 5 cm). What holds: the first of the best offsets is taken (c123_first_of_the_best) and an offset strictly better than all others is the one returned (c123_strictly_best_is_taken_partial). Missing: that a scan stays when other offsets are equally good."
  },
  {
   "property": "C124",
   "status": "partial",
   "theorems": [
    "Ndt.c124_poses_are_true_partial",
    "Ndt.c124_turning_before_a_wall"
   ],
   "note": "Refuted for the whole node with default parameters: a robot that turns on the spot by 1 rad before a straight wall, with exact odometry and laser, is stored at (-0.05, 0, 1): the search window's first offset along the wall scores as well as staying. Proved: if every matched scan fits strictly best where odometry puts it (and the loop closure thread does not match), one rigid transform takes the true poses to those of the map. The example runs the same robot with a search of eight offsets."
  },
  {
   "property": "C125",
   "status": "proved",
   "theorems": [
    "Ndt.c125_score_counts_places",
    "Ndt.c125_closed_where_it_has_its_place",
    "Ndt.c125_some_beam_has_a_place"
   ],
   "note": ""
  },
  {
   "property": "C126",
   "status": "proved",
   "theorems": [
    "Ndt.c126_messages_are_drawings",
    "Ndt.c126_occupied_was_hit"
   ],
   "note": "That scans must have points on all sides is C42's finding; aligned bounds may still creep by a cell per update (C81), which is why the number of scans enters the limit."
  },
  {
   "property": "C127",
   "status": "partial",
   "theorems": [
    "Ndt.c127_candidates_near_partial",
    "Ndt.c127_loops_near_partial",
    "Ndt.c127_node_loops_near_partial",
    "Ndt.c127_default_loops_near_partial",
    "Ndt.c127_not_after_loading"
   ],
   "note": "The code violates the unconditional claim: c127_not_after_loading closes a loop of any length when a map is loaded between picking the scan and trying the candidate (the model of the mapper with given scores). Proved for every other closure, at the level of the mapper for any matcher with bounded corrections and of the node with NDT matchers."
  },
  {
   "property": "C128",
   "status": "partial",
   "theorems": [
    "Ndt.c128_best_of_the_offsets",
    "Ndt.c128_within_the_window",
    "Ndt.c128_score_in_range_partial",
    "Ndt.c128_score_can_be_infinite",
    "Ndt.c128_no_loops_afterwards"
   ],
   "note": "The choice of the offset and the window hold without conditions on the map. The range of the score holds for maps whose squares are spread enough; refuted in general by five points with y = 5.3: score minus infinity, covariance NaN, and then no loop closure is ever accepted."
  },
  {
   "property": "C129",
   "status": "proved",
   "theorems": [
    "Ndt.c129_map_and_match_return",
    "Ndt.c129_tiny_resolution_never_returns"
   ],
   "note": "With `c129_tiny_resolution_never_returns` for resolutions below the precision of the window. Infinite and NaN coordinates are outside the bounds."
  },
  {
   "property": "C130",
   "status": "partial",
   "theorems": [
    "Ndt.c130_returns",
    "Ndt.c130_weights_partial",
    "Ndt.c130_mean",
    "Ndt.c130_infinite_score",
    "Ndt.c130_no_score",
    "Ndt.c130_no_map",
    "Ndt.c130_mean_can_be_nan",
    "Ndt.c130_near_the_wall"
   ],
   "note": "Missing: squares spread less than by 400 n 2^-53 of the square of the coordinates and clouds without a score other than zero, where the code breaks it (`c130_mean_can_be_nan`, `c130_near_the_wall`)."
  },
  {
   "property": "C131",
   "status": "proved",
   "theorems": [
    "Ndt.c131_heading",
    "Ndt.c131_among",
    "Ndt.c131_variance"
   ],
   "note": "That the entry grows instead of being replaced is C24."
  },
  {
   "property": "C132",
   "status": "partial",
   "theorems": [
    "Ndt.c132_zero_at_creation",
    "Ndt.c132_residual",
    "Ndt.c132_below_minus_pi"
   ],
   "note": "All but the last sentence proved. Refuted: the largest double below M_PI is normalised to less than -pi (`c132_below_minus_pi`); the computed value stays within 6e-14 of that range."
  },
  {
   "property": "C133",
   "status": "proved",
   "theorems": [
    "Ndt.c133_barycenter",
    "Ndt.c133_between",
    "Ndt.c133_one_spot"
   ],
   "note": "`c133_one_spot`: three returns from one spot have a barycenter that is not that spot."
  },
  {
   "property": "C134",
   "status": "partial",
   "theorems": [
    "Ndt.c134_motion_iff",
    "Ndt.c134_moving_robot_partial",
    "Ndt.c134_turning_on_the_spot",
    "Ndt.c134_initial_pose_iff",
    "Ndt.c134_only_the_filter",
    "Ndt.c134_single_precision",
    "Ndt.c134_turning_ends_the_node"
   ],
   "note": "Refuted: a robot that turned on the spot has its first rotation drawn with the deviation zero, whatever the coefficients (`c134_turning_on_the_spot`; `c134_turning_ends_the_node` is such a run), and so has an initial pose with a variance of zero. Proved: with positive coefficients the deviations of a motion are positive exactly when the odometry changed its place, those of an initial pose exactly when its variances are positive."
  },
  {
   "property": "C135",
   "status": "partial",
   "theorems": [
    "Ndt.c135_in_range",
    "Ndt.c135_drawn_iff",
    "Ndt.c135_share",
    "Ndt.c135_positive_partial",
    "Ndt.c135_informative_partial",
    "Ndt.c135_resampled_partial",
    "Ndt.c135_passes_check",
    "Ndt.c135_zero_draws_first",
    "Ndt.c135_nothing_draws_first",
    "Ndt.c135_nothing_aborts",
    "Ndt.c135_blind_scan_collapses",
    "Ndt.c135_weightless_particle_drawn",
    "Ndt.c135_blind_scan_example"
   ],
   "note": "Refuted: a scan that says nothing (all scores zero, or one NaN) leaves weights that are NaN, for which the first particle is drawn every time, so that all particles become copies of it (`c135_blind_scan_collapses`, `c135_blind_scan_example`); with the library's assertions the node ends there. A uniform number of zero draws the first particle even if it has no weight (`c135_weightless_particle_drawn`). Proved: the index is in range whatever the weights are; for weights that are a distribution and uniform numbers other than zero the particle has a positive weight and its chance is its share (`c135_share`, as Lebesgue measure), which is the hypothesis about the draws that C22 and C93 make."
  },
  {
   "property": "C136",
   "status": "partial",
   "theorems": [
    "Ndt.c136_passes_check",
    "Ndt.c136_positive_partial",
    "Ndt.c136_chance",
    "Ndt.c136_weightless_last_particle_drawn"
   ],
   "note": "Refuted: the computed shares may add up to less than one, and a number above their sum draws the last particle even if it has no weight (`c136_weightless_last_particle_drawn`: weights 0.2, 0.4, 0.3, 0.1, 0). Proved: any other particle drawn has a positive weight, unless the uniform number is zero; the numbers that draw a particle are an interval with ends that are right up to n 2^-49 (`c136_chance`)."
  },
  {
   "property": "C137",
   "status": "proved",
   "theorems": [
    "Ndt.c137_covariance",
    "Ndt.c137_diagonal_nonneg",
    "Ndt.c137_no_overlap"
   ],
   "note": "The diagonal is not negative whatever the sum (`c137_diagonal_nonneg`). Without overlap every entry is NaN in doubles too (`c137_no_overlap`, see C76). That the product of the means is added, not subtracted, is C16."
  },
  {
   "property": "C138",
   "status": "proved",
   "theorems": [
    "Ndt.c138_deviations_are_numbers",
    "Ndt.c138_deviations",
    "Ndt.c138_draws_are_numbers",
    "Ndt.c138_moved",
    "Ndt.c138_noise_free",
    "Ndt.c138_still"
   ],
   "note": "Motions within 1e-15 m of the one-centimetre threshold are left out of the accuracy claims: rounding decides on which side they fall. Overflow of double is left out (DESIGN.md 2)."
  },
  {
   "property": "C139",
   "status": "proved",
   "theorems": [
    "Ndt.c139_rotation",
    "Ndt.c139_translation",
    "Ndt.c139_robot_in_place",
    "Ndt.c139_steady",
    "Ndt.c139_a_hundred_thousand_scans",
    "Ndt.c139_exact"
   ],
   "note": "`c139_exact`: without rounding the same model gives the transform of C53 and a quaternion of length one. The functions of Eigen 3.4 and tf2_eigen are in the model as written there, without fused operations."
  },
  {
   "property": "C140",
   "status": "proved",
   "theorems": [
    "Ndt.c140_bins_of_places",
    "Ndt.c140_bin_of_a_neighbour",
    "Ndt.c140_same_bin",
    "Ndt.c140_size",
    "Ndt.c140_size_off_by_one",
    "Ndt.c140_within_limits",
    "Ndt.c140_enough",
    "Ndt.c140_no_more_than_needed",
    "Ndt.c140_no_fault",
    "Ndt.c140_exact"
   ],
   "note": "`c140_size` is for error bounds from 1e-6 to 1e6 and every quantile from 0. `c140_exact`: without rounding the model is the exact one. Sums of weights in the leaves of the tree are never read and are left exact. `twoBins_resampled` is a concrete resampling with the parameters of the mapper."
  },
  {
   "property": "C141",
   "status": "proved",
   "theorems": [
    "Ndt.c141_gone",
    "Ndt.c141_turned",
    "Ndt.c141_ignored",
    "Ndt.c141_still",
    "Ndt.c141_apart",
    "Ndt.c141_exact"
   ],
   "note": "`c141_gone`, `c141_turned`, `c141_ignored` (and its converse form `c141_apart`), `c141_still`; `c141_exact`: without rounding the test is the exact one. Far from the origin the differences of the coordinates are rounded once, relative to the difference itself, so the position of the origin does not matter."
  },
  {
   "property": "C142",
   "status": "proved",
   "theorems": [
    "Ndt.c142_heading",
    "Ndt.c142_unit",
    "Ndt.c142_round_trip"
   ],
   "note": "`c142_heading`, `c142_unit`, `c142_round_trip`. The components of a quaternion in a message are doubles, so the length of what is sent is one only up to rounding: this is the distance d."
  },
  {
   "property": "C143",
   "status": "proved",
   "theorems": [
    "Ndt.c143_control",
    "Ndt.c143_exact",
    "Ndt.c143_still",
    "Ndt.c143_particle_follows"
   ],
   "note": "`c143_control`, `c143_still`, `c143_particle_follows`; `c143_exact`: without rounding it is the control of the exact model."
  },
  {
   "property": "C144",
   "status": "proved",
   "theorems": [
    "Ndt.c144_end_is_last_beam",
    "Ndt.c144_within_a_nanosecond",
    "Ndt.c144_empty_message_is_undefined",
    "Ndt.c144_exact"
   ],
   "note": "`c144_end_is_last_beam` and `c144_within_a_nanosecond` need a beam: `c144_empty_message_is_undefined` is the witness without one, as for C92."
  },
  {
   "property": "C145",
   "status": "proved",
   "theorems": [
    "Ndt.c145_obstacles_in_the_map",
    "Ndt.c145_distances"
   ],
   "note": "`c145_obstacles_in_the_map`, `c145_distances`. Most of the 1.21 mm is the bound of C114 for the longest run (1 mm) and the angles in single precision (0.2 mm). The real-number version, through the whole node and down to the published grid, is C122. A robot that moves while it scans is the subject of C49, where the code is off by more than rounding."
  },
  {
   "property": "C146",
   "status": "proved",
   "theorems": [
    "Ndt.c146_occupied_is_measured",
    "Ndt.c146_measured_is_known",
    "Ndt.c146_occupied_is_an_obstacle"
   ],
   "note": "`c146_occupied_is_measured`, `c146_measured_is_known`, `c146_occupied_is_an_obstacle`. Of the 0.523, 0.5 is the square itself, 0.02 the slack of C126 and 0.0027 the float. The extra square along x is the defect recorded in C44."
  },
  {
   "property": "C147",
   "status": "proved",
   "theorems": [
    "Ndt.c147_corrected_poses",
    "Ndt.c147_a_hundred_thousand_scans",
    "Ndt.c147_no_corrections",
    "Ndt.c147_points_in_the_map"
   ],
   "note": "`c147_corrected_poses` (general bound), `c147_a_hundred_thousand_scans`, `c147_no_corrections`, `c147_points_in_the_map`. The corrections are arbitrary inputs; the default search window is within the quarter of a radian. Loop closure and the optimiser, which move poses of the graph, are not part of it."
  },
  {
   "property": "C148",
   "status": "proved",
   "theorems": [
    "Ndt.c148_in_range",
    "Ndt.c148_average",
    "Ndt.c148_between",
    "Ndt.c148_forgets"
   ],
   "note": "`c148_in_range`, `c148_average`, `c148_between`, `c148_forgets`. For scores that are not numbers or not in range see C58 and C128."
  },
  {
   "property": "C149",
   "status": "proved",
   "theorems": [
    "Ndt.c149_information",
    "Ndt.c149_symmetric",
    "Ndt.c149_weight",
    "Ndt.c149_weight_of_covariance",
    "Ndt.c149_given_pose",
    "Ndt.c149_tiny_variances"
   ],
   "note": "`c149_information`, `c149_symmetric`, `c149_weight`, `c149_weight_of_covariance`, `c149_given_pose`, `c149_tiny_variances`. Exact arithmetic: C33, C34. That the code uses L where the Mahalanobis distance needs its transpose is C34."
  },
  {
   "property": "C150",
   "status": "proved",
   "theorems": [
    "Ndt.c150_weight_near",
    "Ndt.c150_weight_of_match"
   ],
   "note": "`c150_weight_near`, `c150_weight_of_match`. Builds on C137 (covariance of a match) and C149 (inverse and factor). `Eigen::LLT` reads only the lower half, so the factor is that of the mirrored inverse. That the exact matrix has a plus where a covariance has a minus is C16."
  },
  {
   "property": "C151",
   "status": "proved",
   "theorems": [
    "Ndt.c151_score_near",
    "Ndt.c151_score_near_anywhere",
    "Ndt.c151_likelihood_near"
   ],
   "note": "`c151_score_near`, `c151_score_near_anywhere`, `c151_likelihood_near`. With squares of 25 cm, 30 points in each, 20 m from the origin and a standard deviation of 3 cm the bound is 8e-4. Strengthens C98 (the score is at most one) to how near it is to the exact one of C08 to C10. The determinant with the limit is continuous across the branch, so it does not matter on which side rounding ends up. For cells spread less than this the score can be infinite (C98)."
  },
  {
   "property": "C152",
   "status": "proved",
   "theorems": [
    "Ndt.c152_nearly_best",
    "Ndt.c152_clear_winner"
   ],
   "note": "`c152_nearly_best`, `c152_clear_winner`. Builds on C128 (first of the best computed scores) and C151. The positions of the beams are those that are computed."
  },
  {
   "property": "C153",
   "status": "proved",
   "theorems": [
    "Ndt.c153_score_near",
    "Ndt.c153_weights_near"
   ],
   "note": "`c153_score_near`, `c153_weights_near`. Joins C151 and C130: C130 relates weights and mean to the scores as computed, C153 to the exact ones. The points at which the normal distributions are taken are the beams as moved in doubles. Where no particle has a score the weights are NaN (C130)."
  },
  {
   "property": "C154",
   "status": "proved",
   "theorems": [
    "Ndt.c154_moved_near",
    "Ndt.c154_right_square",
    "Ndt.c154_points_of_a_square",
    "Ndt.c154_likelihood_near",
    "Ndt.c154_weights_near"
   ],
   "note": "`c154_moved_near`, `c154_right_square`, `c154_points_of_a_square`, `c154_likelihood_near`, `c154_weights_near`. The normal distributions are those of the points as they are in the map, which are off by 2e-15 P from the exact ones."
  },
  {
   "property": "C155",
   "status": "proved",
   "theorems": [
    "Ndt.c155_beam_near",
    "Ndt.c155_nearly_best",
    "Ndt.c155_clear_winner"
   ],
   "note": "`c155_beam_near`, `c155_nearly_best`, `c155_clear_winner`. C152 with the positions of the beams in exact arithmetic."
  },
  {
   "property": "C156",
   "status": "partial",
   "theorems": [
    "Ndt.c156_within_partial",
    "Ndt.c156_outside_partial",
    "Ndt.c156_beyond",
    "Ndt.c156_far_particle",
    "Ndt.c156_far_scan"
   ],
   "note": "`c156_within_partial`, `c156_outside_partial` (what holds); `c156_beyond`, `c156_far_particle`, `c156_far_scan` (where it fails, with the map of four corners and a robot 2^40 m to its right). Missing: the property itself for points beyond 2^32 squares, which does not hold."
  },
  {
   "property": "C157",
   "status": "partial",
   "theorems": [
    "Ndt.c157_wall_gives_no_hold",
    "Ndt.c157_first_along_the_wall",
    "Ndt.c157_held_partial",
    "Ndt.c157_pushed_down_the_wall",
    "Ndt.c157_own_map_pushes"
   ],
   "note": "C123 for walls of any direction, in real numbers. `c157_held_partial` (what holds); `c157_wall_gives_no_hold`, `c157_first_along_the_wall`, `c157_pushed_down_the_wall`, `c157_own_map_pushes` (where it fails, the last one with the default parameters). Missing: the property itself for directions along which the window has an offset, which does not hold."
  },
  {
   "property": "C158",
   "status": "proved",
   "theorems": [
    "Ndt.c158_score_of_a_point",
    "Ndt.c158_first_of_the_perfect",
    "Ndt.c158_two_walls_hold",
    "Ndt.c158_corner_stays"
   ],
   "note": "In real numbers. `c158_score_of_a_point`, `c158_first_of_the_perfect`, `c158_two_walls_hold`; `c158_corner_stays` is the corner of a room with the default parameters, matched against its own map. A square that two walls go through is outside the hypotheses: its points are on no line."
  },
  {
   "property": "C159",
   "status": "proved",
   "theorems": [
    "Ndt.c159_put_back",
    "Ndt.c159_corner_put_back"
   ],
   "note": "C158 for a scan that is not where it is believed to be, in real numbers. `c159_put_back`; `c159_corner_put_back` is a scan of the corner of a room off by 2 cm, 1 cm and 0.02, with the default parameters. For displacements between the offsets of the window see C13: the best offset is returned."
  },
  {
   "property": "C160",
   "status": "proved",
   "theorems": [
    "Ndt.c160_stop",
    "Ndt.c160_drift_does_not_add_up",
    "Ndt.c160_first",
    "Ndt.c160_from_the_start",
    "Ndt.c160_drift_is_corrected",
    "Ndt.c160_corner_from_the_start"
   ],
   "note": "In real numbers, on the node itself (Model/Node). `c160_stop`, `c160_drift_does_not_add_up`; `c160_drift_is_corrected` is a stop in the corner of a room with the default parameters (but for the resolution of the grid and the barycenters, which play no part), odometry off by a centimetre. `c160_first` and `c160_from_the_start` begin with the start of the node with a map file, a first message and a pose message that is true; `c160_corner_from_the_start` is the same corner from there on. The three pieces of work of a stop follow one another here; the other threads do not touch what they use while mapping is off (C62, C120)."
  },
  {
   "property": "C161",
   "status": "proved",
   "theorems": [
    "Ndt.c161_stop",
    "Ndt.c161_map_is_true",
    "Ndt.c161_first_stop",
    "Ndt.c161_from_the_start",
    "Ndt.c161_drift_is_corrected",
    "Ndt.c161_corner_from_the_start"
   ],
   "note": "In real numbers, on the node itself (Model/Node). `c161_stop`, `c161_map_is_true`; `c161_drift_is_corrected` is a stop in the corner of a room with the default parameters (but for the resolution of the grid and the barycenters, which play no part, and a minimum travel of 5 cm), odometry off by a centimetre. `c161_first_stop` and `c161_from_the_start` begin with the start of the node, without a map: the first message makes the first scan, whose place is the origin; `c161_corner_from_the_start` is the same corner from there on, two messages in all (the ten beams of the first all point the same way, from a robot that slides along meanwhile). The six pieces of work of a stop follow one another here, without a loop closure between them. A map longer than the rolling depth but shorter than ten scans is excluded: the code leaves the list of scans there, see C57."
  },
  {
   "property": "C162",
   "status": "proved",
   "theorems": [
    "Ndt.c162_map_then_localise",
    "Ndt.c162_corner"
   ],
   "note": "In real numbers, on the node itself (Model/Node). `c162_map_then_localise` (with `c161_first_stop`, `c161_map_is_true`, `taken_load`, `c160_from_the_start`); `c162_corner` is a life with the default parameters (but for the resolution of the grid and the barycenters, which play no part, and a minimum travel of 5 cm) on the first node: one message of ten beams makes the map, the second drive has one stop with odometry off by a centimetre. The pieces of work of a stop follow one another here, without a loop closure between them. The hypotheses about the second drive name the map by the scans of the first node."
  },
  {
   "property": "C163",
   "status": "proved",
   "theorems": [
    "Ndt.c163_localising",
    "Ndt.c163_mapping",
    "Ndt.c163_corner",
    "Ndt.c163_corner_localising"
   ],
   "note": "In real numbers, on the node itself (Model/Node). `pause_step` (one message), `c163_localising`, `c163_mapping`; `c163_corner` and `c163_corner_localising` are the drives of C161 and C160 in the corner of a room from the start of the node, with messages at 2 and 4 cm (minimum travel 5 cm) and at 6 cm (minimum travel 10 cm)."
  },
  {
   "property": "C164",
   "status": "proved",
   "theorems": [
    "Ndt.c164_publishing_is_invisible",
    "Ndt.c164_publishing_added",
    "Ndt.c164_mapping",
    "Ndt.c164_localising",
    "Ndt.c164_corner"
   ],
   "note": "In real numbers, on the node itself (Model/Node), whose steps are atomic (DESIGN.md; unlocked access to shared members is C69). `c164_publishing_is_invisible`, `c164_publishing_added`, `c164_mapping`, `c164_localising`; `c164_corner` is the drive of C163 in the corner with the publishing thread starting in the midst of the second scan."
  },
  {
   "property": "C165",
   "status": "proved",
   "theorems": [
    "Ndt.c165_keeps_waiting",
    "Ndt.c165_start",
    "Ndt.c165_loop_closure_idle",
    "Ndt.c165_localising",
    "Ndt.c165_corner"
   ],
   "note": "In real numbers, on the node itself (Model/Node), whose steps are atomic (DESIGN.md). `c165_start`, `c165_keeps_waiting`, `c165_loop_closure_idle`, `c165_localising`; `c165_corner` is the localising drive of C163 with the loop closure thread waking up between its steps. A round that was under way when mapping was turned off goes on (the thread then does not wait), which is outside of this claim."
  },
  {
   "property": "C166",
   "status": "proved",
   "theorems": [
    "Ndt.c166_only_counts",
    "Ndt.c166_short_map",
    "Ndt.c166_mapping",
    "Ndt.c166_corner"
   ],
   "note": "In real numbers, on the node itself (Model/Node), whose steps are atomic (DESIGN.md). `c166_only_counts`, `c166_short_map`, `c166_mapping`; `c166_corner` is the mapping drive of C163 with the thread waking up before the second scan and counting after it. Every message with a scan or a first pose counts as one scan that the run can add."
  }
 ]
}