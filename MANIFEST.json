{
 "claims": [
  {
   "property": "C01",
   "status": "proved",
   "theorems": [
    "TC.C01_apply_index_keeps_channels_in_step"
   ],
   "note": "All equal-length trajectories and all valid index lists, negative positions included."
  },
  {
   "property": "C02",
   "status": "proved",
   "theorems": [
    "TC.C02_apply_index_out_of_range_changes_nothing",
    "TC.C02_apply_mask_wrong_length_changes_nothing"
   ],
   "note": "Integer index lists and boolean masks."
  },
  {
   "property": "C03",
   "status": "proved",
   "theorems": [
    "TC.C03_crop_keeps_exactly_the_window",
    "TC.C03_crop_inverse_keeps_exactly_the_rest",
    "TC.C03_crop_and_inverse_partition"
   ],
   "note": ""
  },
  {
   "property": "C04",
   "status": "partial",
   "theorems": [
    "TC.C04_channels_in_step_partial",
    "TC.C04_channels_in_step_without_orientations_partial",
    "TC.C04_interpolation_outside_range_gets_out_of_step",
    "TC.C04_failed_interpolation_gets_out_of_step",
    "TC.C04_empty_selection_gets_out_of_step"
   ],
   "note": "False of the code in three ways, each with a witness: interpolation without a time in the own range leaves one speed for no sample; a failing Slerp and an empty selection raise half way. Proved for every history of calls (in place or on copies, successful or raising, all twelve methods with an inplace flag) in which these three do not occur, and without any condition for histories of selections on trajectories without orientations."
  },
  {
   "property": "C05",
   "status": "proved",
   "theorems": [
    "TC.C05_interpolate_timestamps",
    "TC.C05_interpolate_succeeds"
   ],
   "note": ""
  },
  {
   "property": "C06",
   "status": "proved",
   "theorems": [
    "TC.C06_interpolate_positions",
    "TC.C06_interpolate_arc_lengths",
    "TC.C06_interpolate_orientations",
    "TC.C06_interpolate_speeds",
    "TC.C06_empty_request_one_speed"
   ],
   "note": ""
  },
  {
   "property": "C07",
   "status": "proved",
   "theorems": [
    "TC.C07_interpolate_own_timestamps"
   ],
   "note": ""
  },
  {
   "property": "C08",
   "status": "partial",
   "theorems": [
    "TC.C08_interpolate_atomic_without_orientations_partial",
    "TC.C08_interpolate_not_atomic"
   ],
   "note": "The full claim is false for trajectories with orientations; the negation is proved with a concrete witness. Proved: trajectories without orientations."
  },
  {
   "property": "C09",
   "status": "proved",
   "theorems": [
    "TC.C09_intersect_without_overlap_raises",
    "TC.C09_intersect_keeps_exactly_the_covered_samples"
   ],
   "note": "With orientations: at least one sample is kept (C97 covers the rest)."
  },
  {
   "property": "C10",
   "status": "proved",
   "theorems": [
    "TC.C10_intersect_idempotent"
   ],
   "note": ""
  },
  {
   "property": "C11",
   "status": "proved",
   "theorems": [
    "TC.C11_match_timestamps"
   ],
   "note": ""
  },
  {
   "property": "C12",
   "status": "proved",
   "theorems": [
    "TC.C12_not_inplace_leaves_objects_alone",
    "TC.C12_not_inplace_returns_what_inplace_makes",
    "TC.C12_not_inplace_raises_iff_inplace_raises",
    "TC.C12_inplace_touches_only_the_receiver"
   ],
   "note": "All methods with an inplace parameter; for apply_alignment only the statement about unchanged objects, since its in-place form always raises (C20)."
  },
  {
   "property": "C13",
   "status": "proved",
   "theorems": [
    "TC.C13_arc_lengths_are_travelled_distance",
    "TC.C13_arc_lengths_never_decrease",
    "TC.C13_arc_length_at_least_straight_line"
   ],
   "note": ""
  },
  {
   "property": "C14",
   "status": "proved",
   "theorems": [
    "TC.C14_arc_lengths_rigid_motion",
    "TC.C14_arc_lengths_scaling",
    "TC.C14_arc_lengths_reversal"
   ],
   "note": ""
  },
  {
   "property": "C15",
   "status": "proved",
   "theorems": [
    "TC.C15_switching_index_undoes_sorting",
    "TC.C15_switching_index_undoes_orientations"
   ],
   "note": ""
  },
  {
   "property": "C16",
   "status": "proved",
   "theorems": [
    "TC.C16_sort_spatially"
   ],
   "note": ""
  },
  {
   "property": "C17",
   "status": "proved",
   "theorems": [
    "TC.C17_rigid_motion_moves_every_pose",
    "TC.C17_transformations_compose",
    "TC.C17_identity_changes_nothing",
    "TC.C17_inverse_cancels"
   ],
   "note": ""
  },
  {
   "property": "C18",
   "status": "partial",
   "theorems": [
    "TC.C18_transformation_invents_orientations",
    "TC.C18_transformation_keeps_orientations_partial"
   ],
   "note": "False of the code: the negation is proved for every non-empty trajectory without orientations. Proved: trajectories with orientations keep having them."
  },
  {
   "property": "C19",
   "status": "partial",
   "theorems": [
    "TC.C19_arc_lengths_after_rigid_motion_partial",
    "TC.C19_arc_lengths_after_scaling_wrong"
   ],
   "note": "False of the code for scale other than 1: the negation is proved. Proved: rigid motions."
  },
  {
   "property": "C20",
   "status": "partial",
   "theorems": [
    "TC.C20_apply_alignment_inplace_always_raises",
    "TC.C20_apply_alignment_not_inplace_returns_partial"
   ],
   "note": "False of the code: with the default inplace=True the call raises for every input. Proved: inplace=False returns."
  },
  {
   "property": "C21",
   "status": "proved",
   "theorems": [
    "TC.C21_aligned_positions",
    "TC.C21_aligned_positions_without_orientations",
    "TC.C21_aligned_orientations_scale_one",
    "TC.C21_neutral_alignment_changes_nothing"
   ],
   "note": ""
  },
  {
   "property": "C22",
   "status": "partial",
   "theorems": [
    "TC.C22_adopt_first_pose_partial",
    "TC.C22_adopt_first_pose_changes_nothing",
    "TC.C22_adopt_first_pose_wrong",
    "TC.C22_adopt_first_parts_change_nothing"
   ],
   "note": "False of the code: the parameter is shadowed by the receiver, so the call never changes anything. Proved: it changes nothing; and the property for equal first positions."
  },
  {
   "property": "C23",
   "status": "partial",
   "theorems": [
    "TC.C23_construction_partial",
    "TC.C23_default_timestamps",
    "TC.C23_mismatching_timestamps_accepted",
    "TC.C23_empty_construction_incoherent"
   ],
   "note": "False of the code for a different number of timestamps together with given speeds, and for no positions. Proved for at least one position and timestamps omitted or one per position."
  },
  {
   "property": "C24",
   "status": "proved",
   "theorems": [
    "TC.C24_approximate",
    "TC.C24_approximate_end_to_end"
   ],
   "note": ""
  },
  {
   "property": "C25",
   "status": "proved",
   "theorems": [
    "TC.C25_se3_round_trip",
    "TC.C25_se3_round_trip_matrices"
   ],
   "note": ""
  },
  {
   "property": "C26",
   "status": "proved",
   "theorems": [
    "TC.C26_data_rate"
   ],
   "note": ""
  },
  {
   "property": "C27",
   "status": "proved",
   "theorems": [
    "TC.C27_common_time_span_none_iff",
    "TC.C27_common_time_span_exact",
    "TC.C27_common_time_span_order_independent",
    "TC.C27_common_time_span_symmetric",
    "TC.C27_common_time_span_empty"
   ],
   "note": ""
  },
  {
   "property": "C28",
   "status": "proved",
   "theorems": [
    "TC.C28_rndodd"
   ],
   "note": ""
  },
  {
   "property": "C29",
   "status": "proved",
   "theorems": [
    "TC.C29_gradient_integrates",
    "TC.C29_gradient_of_constant_velocity"
   ],
   "note": ""
  },
  {
   "property": "C30",
   "status": "proved",
   "theorems": [
    "TC.C30_least_squares",
    "TC.C30_least_squares_unweighted",
    "TC.C30_fit_line_2d"
   ],
   "note": ""
  },
  {
   "property": "C31",
   "status": "proved",
   "theorems": [
    "TC.C31_projection_is_nearest"
   ],
   "note": ""
  },
  {
   "property": "C32",
   "status": "partial",
   "theorems": [
    "TC.C32_round_to_precision_partial",
    "TC.C32_short_data_raises"
   ],
   "note": "False of the code for fewer values than the filter is long: the smoothed vector is then longer than the data and the call raises ValueError (proved for all such inputs). Proved for all other inputs, with the smoothed values as window means."
  },
  {
   "property": "C33",
   "status": "proved",
   "theorems": [
    "TC.C33_matches_are_nearest_within_limit"
   ],
   "note": ""
  },
  {
   "property": "C34",
   "status": "proved",
   "theorems": [
    "TC.C34_matches_are_one_to_one"
   ],
   "note": ""
  },
  {
   "property": "C35",
   "status": "proved",
   "theorems": [
    "TC.C35_raises_iff_nothing_in_reach",
    "TC.C35_no_neighbour_is_forgotten"
   ],
   "note": ""
  },
  {
   "property": "C36",
   "status": "partial",
   "theorems": [
    "TC.C36_first_candidate_is_kept_partial",
    "TC.C36_closest_candidate_is_not_kept"
   ],
   "note": "False of the code: np.unique keeps the first test sample that claims a reference sample, not the closest (negation proved with a witness). Proved: the first claimant is the one kept."
  },
  {
   "property": "C37",
   "status": "partial",
   "theorems": [
    "TC.C37_matched_length_partial",
    "TC.C37_test_length_is_not_kept"
   ],
   "note": "False of the code when two test samples share a nearest reference sample (negation proved with a witness). Proved: the exact length, and equality when nearest samples are distinct."
  },
  {
   "property": "C38",
   "status": "proved",
   "theorems": [
    "TC.C38_temporal_matching"
   ],
   "note": ""
  },
  {
   "property": "C39",
   "status": "proved",
   "theorems": [
    "TC.C39_spatial_matching"
   ],
   "note": ""
  },
  {
   "property": "C40",
   "status": "proved",
   "theorems": [
    "TC.C40_interpolation_matching",
    "TC.C40_orientations",
    "TC.C40_speeds"
   ],
   "note": ""
  },
  {
   "property": "C41",
   "status": "proved",
   "theorems": [
    "TC.C41_not_inplace_leaves_inputs",
    "TC.C41_unknown_method_raises"
   ],
   "note": ""
  },
  {
   "property": "C42",
   "status": "proved",
   "theorems": [
    "TC.C42_line_interpolated_matching",
    "TC.C42_one_neighbour_never_returns"
   ],
   "note": "With k_nearest = 1 the call never returns a result: it raises for every input (second theorem)."
  },
  {
   "property": "C43",
   "status": "proved",
   "theorems": [
    "TC.C43_inputs_unchanged",
    "TC.C43_rough_offset",
    "TC.C43_median"
   ],
   "note": ""
  },
  {
   "property": "C44",
   "status": "proved",
   "theorems": [
    "TC.C44_merge_keeps_samples_and_sorts",
    "TC.C44_empty_input_raises"
   ],
   "note": "Inputs without samples raise ValueError (second theorem)."
  },
  {
   "property": "C45",
   "status": "partial",
   "theorems": [
    "TC.C45_merged_arc_lengths_partial",
    "TC.C45_merged_arc_lengths_wrong"
   ],
   "note": "False for interleaved inputs (second theorem, concrete counterexample): the arc lengths are those of the concatenation, reordered. Proved when the concatenation is already ordered by time."
  },
  {
   "property": "C46",
   "status": "proved",
   "theorems": [
    "TC.C46_merged_epsg",
    "TC.C44_empty_input_raises"
   ],
   "note": "Mixed EPSG codes are accepted with a warning only."
  },
  {
   "property": "C47",
   "status": "proved",
   "theorems": [
    "TC.C47_sort_visits_each_sample_once",
    "TC.C47_sort_mls",
    "TC.C47_sort_mls_end_to_end"
   ],
   "note": "Triangulation, spanning tree and neighbour search are parameters; the first two constrained by TreeOk (Spec/Graph)."
  },
  {
   "property": "C48",
   "status": "partial",
   "theorems": [
    "TC.C48_highest_point_at_an_end_partial",
    "TC.C48_highest_point_first_fails"
   ],
   "note": "False as claimed by the comment in the code: when the direction is corrected the highest point ends up last (counterexample). Proved: it is always at one of the two ends."
  },
  {
   "property": "C49",
   "status": "proved",
   "theorems": [
    "TC.C49_begin_with"
   ],
   "note": ""
  },
  {
   "property": "C50",
   "status": "proved",
   "theorems": [
    "TC.C50_insertion_keeps_alignment"
   ],
   "note": ""
  },
  {
   "property": "C51",
   "status": "proved",
   "theorems": [
    "TC.C51_direction_of_reversed_path"
   ],
   "note": ""
  },
  {
   "property": "C52",
   "status": "proved",
   "theorems": [
    "TC.C52_voxels_partition_points",
    "TC.C52_no_points"
   ],
   "note": ""
  },
  {
   "property": "C53",
   "status": "partial",
   "theorems": [
    "TC.C53_points_of_a_voxel_are_close_partial",
    "TC.C53_points_of_a_voxel_are_close_fails"
   ],
   "note": "False (concrete counterexample): the digits of the three cell numbers are joined without separator, so different cells can share an id. Proved when all cell numbers have the same number of digits."
  },
  {
   "property": "C54",
   "status": "proved",
   "theorems": [
    "TC.C54_smoothing_stops"
   ],
   "note": ""
  },
  {
   "property": "C55",
   "status": "proved",
   "theorems": [
    "TC.C55_cache_does_not_change_a_pass",
    "TC.C55_history_does_not_matter"
   ],
   "note": ""
  },
  {
   "property": "C56",
   "status": "partial",
   "theorems": [
    "TC.C56_windows_partial",
    "TC.C56_last_sample_never_used",
    "TC.C56_window_contains_sample_fails"
   ],
   "note": "False for the last sample (counterexample): the window ends before it, so the last orientation is never used. Proved for all other samples."
  },
  {
   "property": "C57",
   "status": "proved",
   "theorems": [
    "TC.C57_sample_count",
    "TC.C57_constant_reproduced",
    "TC.C57_positions",
    "TC.C57_too_few_samples",
    "TC.C57_returns"
   ],
   "note": ""
  },
  {
   "property": "C58",
   "status": "proved",
   "theorems": [
    "TC.C58_evaluation_is_smooth",
    "TC.C58_knots"
   ],
   "note": ""
  },
  {
   "property": "C59",
   "status": "proved",
   "theorems": [
    "TC.C59_self_comparison"
   ],
   "note": ""
  },
  {
   "property": "C60",
   "status": "proved",
   "theorems": [
    "TC.C60_directed_deviations_have_full_length"
   ],
   "note": ""
  },
  {
   "property": "C61",
   "status": "proved",
   "theorems": [
    "TC.C61_common_motion_changes_nothing",
    "TC.applyTransformation_movedBy"
   ],
   "note": ""
  },
  {
   "property": "C62",
   "status": "proved",
   "theorems": [
    "TC.C62_frames_do_not_matter",
    "TC.C62_moved_copy_has_no_error"
   ],
   "note": ""
  },
  {
   "property": "C63",
   "status": "partial",
   "theorems": [
    "TC.C63_pairs_span_distance_partial",
    "TC.C63_consecutive_pairs_partial",
    "TC.C63_consecutive_pairs_fail"
   ],
   "note": "False in consecutive mode (counterexample): pairs may span less than d, even a sample with itself. Proved for all pairs except that a sample from which exactly d remains starts no pair."
  },
  {
   "property": "C64",
   "status": "partial",
   "theorems": [
    "TC.C64_pair_distances_partial",
    "TC.C64_pair_distances_exceed_max"
   ],
   "note": "False unless a whole number of steps leads from min to max: then the last distance exceeds max (proved for every such setting). Proved otherwise."
  },
  {
   "property": "C65",
   "status": "proved",
   "theorems": [
    "TC.C65_relative_comparison_errors",
    "TC.C65_zero_step"
   ],
   "note": ""
  },
  {
   "property": "C66",
   "status": "proved",
   "theorems": [
    "TC.C66_position_statistics",
    "TC.C66_rotation_statistics",
    "TC.C66_order_does_not_matter",
    "TC.C66_rms_of_components",
    "TC.C66_median",
    "TC.C66_without_rotations"
   ],
   "note": ""
  },
  {
   "property": "C67",
   "status": "partial",
   "theorems": [
    "TC.C67_round_trip_partial",
    "TC.C67_equal_means_merge",
    "TC.C67_last_of_equal_means",
    "TC.C67_no_pairs_unreadable"
   ],
   "note": "False for groups with equal mean distance (they overwrite each other) and for results without pairs; proved for groups whose means differ by more than 1e-12."
  },
  {
   "property": "C68",
   "status": "partial",
   "theorems": [
    "TC.C68_round_trip_partial",
    "TC.C68_speed_lost",
    "TC.C68_append_unreadable"
   ],
   "note": "Times, arc lengths, positions, orientations and all deviations come back; speeds, sorting and the trajectory name do not, and a file written twice cannot be read."
  },
  {
   "property": "C69",
   "status": "partial",
   "theorems": [
    "TC.C69_ate_temporal_partial",
    "TC.C69_ate_spatial_partial",
    "TC.C69_ate_interpolation_partial",
    "TC.C69_line_matching_ignored"
   ],
   "note": "Proved for the three methods that match in place. False for NEAREST_SPATIAL_INTERPOLATED: the matched copies are discarded and samples at equal indices are compared (C69_line_matching_ignored)."
  },
  {
   "property": "C70",
   "status": "partial",
   "theorems": [
    "TC.C70_rotation_deviations_partial",
    "TC.C70_rotation_deviations_invented"
   ],
   "note": "False when only the reference has orientations: rotation deviations from one constant rotation are reported (C70_rotation_deviations_invented). Proved in the other cases."
  },
  {
   "property": "C71",
   "status": "proved",
   "theorems": [
    "TC.C71_rotation_error_is_an_angle"
   ],
   "note": ""
  },
  {
   "property": "C72",
   "status": "proved",
   "theorems": [
    "TC.C72_equations_vanish_iff",
    "TC.C72_rotation_is_proper"
   ],
   "note": ""
  },
  {
   "property": "C73",
   "status": "proved",
   "theorems": [
    "TC.C73_transformed_position_solves_equations",
    "TC.C73_aligned_sample_solves_equations"
   ],
   "note": ""
  },
  {
   "property": "C74",
   "status": "proved",
   "theorems": [
    "TC.C74_values_enabled",
    "TC.C74_values",
    "TC.C74_add_corrections"
   ],
   "note": "Any set of parameters, any enable pattern."
  },
  {
   "property": "C75",
   "status": "partial",
   "theorems": [
    "TC.C75_apply_settings",
    "TC.C75_to_settings",
    "TC.C75_from_settings_partial",
    "TC.C75_from_settings_wrong"
   ],
   "note": "apply_settings in full; from_settings is false for every settings whose translation flags differ."
  },
  {
   "property": "C76",
   "status": "partial",
   "theorems": [
    "TC.C76_never_readable"
   ],
   "note": "False for all parameters: no written file can be read."
  },
  {
   "property": "C77",
   "status": "partial",
   "theorems": [
    "TC.C77_round_trip_partial",
    "TC.C77_second_write",
    "TC.C77_converged_lost"
   ],
   "note": "New files in full; a second write makes the file unreadable, converged=False is lost."
  },
  {
   "property": "C78",
   "status": "proved",
   "theorems": [
    "TC.C78_layout",
    "TC.C78_without_orientations",
    "TC.C78_without_speeds",
    "TC.C78_extract",
    "TC.C78_set_group",
    "TC.C78_rejected",
    "TC.C78_whole_epochs",
    "TC.C78_variances"
   ],
   "note": "All settings, epoch counts and vectors."
  },
  {
   "property": "C79",
   "status": "proved",
   "theorems": [
    "TC.C79_equations",
    "TC.C79_condition_matrix",
    "TC.C79_own_epoch"
   ],
   "note": "All layouts and epoch counts. autograd is a parameter with the law that it returns derivatives of differentiable functions, met by Mathlib's deriv."
  },
  {
   "property": "C80",
   "status": "proved",
   "theorems": [
    "TC.C80_design_matrix"
   ],
   "note": "All settings and epochs, over the reals."
  },
  {
   "property": "C81",
   "status": "proved",
   "theorems": [
    "TC.C81_iterations",
    "TC.C81_runs",
    "TC.C81_reported"
   ],
   "note": "Any linear solver, any data."
  },
  {
   "property": "C82",
   "status": "partial",
   "theorems": [
    "TC.C82_settled_partial",
    "TC.C82_time_shift_threshold_ignored",
    "TC.C82_thresholds",
    "TC.C82_no_thresholds"
   ],
   "note": "Proved if all parameters are estimated; false otherwise: updates are compared with the thresholds of other parameters (for a time shift alone, always the metric threshold)."
  },
  {
   "property": "C83",
   "status": "proved",
   "theorems": [
    "TC.C83_disabled_neutral"
   ],
   "note": "All settings, data and solvers."
  },
  {
   "property": "C84",
   "status": "partial",
   "theorems": [
    "TC.C84_centroid_partial",
    "TC.C84_centroid_missed"
   ],
   "note": "Proved for every singular value decomposition and data with positive determinant; mirrored points map the centroid wrongly, for every singular value decomposition."
  },
  {
   "property": "C85",
   "status": "partial",
   "theorems": [
    "TC.C85_proper_partial",
    "TC.C85_mirrored",
    "TC.C85_degenerate"
   ],
   "note": "Proper for positive determinant, improper for every data with negative determinant; undetermined for determinant zero."
  },
  {
   "property": "C86",
   "status": "partial",
   "theorems": [
    "TC.C86_filter",
    "TC.C86_all_disabled",
    "TC.C86_enabled_filter",
    "TC.C86_from_bool_list_partial",
    "TC.C86_from_bool_list_rejected",
    "TC.C86_from_bool_list_flags",
    "TC.C86_speed_flags_lost",
    "TC.C86_components",
    "TC.C86_all",
    "TC.C86_description"
   ],
   "note": "All filters and summaries in full; from_bool_list inverts the filter only if all speed components are used."
  },
  {
   "property": "C87",
   "status": "proved",
   "theorems": [
    "TC.Settings.C87_settings_dictionary",
    "TC.Settings.C87_settings_file",
    "TC.Settings.C87_default_settings"
   ],
   "note": ""
  },
  {
   "property": "C88",
   "status": "partial",
   "theorems": [
    "TC.Settings.C88_accepted_update_complete_partial",
    "TC.Settings.C88_rejected_update_half_applied"
   ],
   "note": "False for rejected updates: the entries before the offending one stay applied (C88_rejected_update_half_applied). Proved for accepted updates."
  },
  {
   "property": "C89",
   "status": "proved",
   "theorems": [
    "TC.C89_last_value",
    "TC.C89_interpretation",
    "TC.C89_text_value",
    "TC.C89_order",
    "TC.C89_text_settings",
    "TC.C89_number_settings",
    "TC.C89_delimiter",
    "TC.C89_defaults",
    "TC.C89_unknown",
    "TC.C89_refused",
    "TC.C89_bad_number"
   ],
   "note": ""
  },
  {
   "property": "C90",
   "status": "proved",
   "theorems": [
    "TC.C90_accepted",
    "TC.C90_signed_permutation"
   ],
   "note": ""
  },
  {
   "property": "C91",
   "status": "proved",
   "theorems": [
    "TC.C91_round_trip",
    "TC.C91_order"
   ],
   "note": "scipy quaternions enter through IsIoLib, met over the reals by realIo. Files are modelled as character lists; nan and inf entries are outside."
  },
  {
   "property": "C92",
   "status": "proved",
   "theorems": [
    "TC.C92_conversion",
    "TC.C92_strict_order"
   ],
   "note": "The time of the GPS epoch is a parameter: the code takes it from a naive datetime, so it depends on the local time zone."
  },
  {
   "property": "C93",
   "status": "proved",
   "theorems": [
    "TC.Ros.C93_one_trajectory_per_topic",
    "TC.Ros.C93_invalid_pose_rejects_bag"
   ],
   "note": "Poses with valid orientations; a zero quaternion rejects the whole bag."
  },
  {
   "property": "C94",
   "status": "partial",
   "theorems": [
    "TC.Report.C94_metres_partial",
    "TC.Report.C94_millimetres_change_results"
   ],
   "note": "False in millimetres: building the report multiplies the deviations of the result by 1000 (C94_millimetres_change_results). Proved in metres."
  },
  {
   "property": "C95",
   "status": "proved",
   "theorems": [
    "TC.Report.C95_shrink_limit",
    "TC.Report.C95_shrink_returns"
   ],
   "note": ""
  },
  {
   "property": "C96",
   "status": "proved",
   "theorems": [
    "TC.Geo.C96_distinct_positions_in_order",
    "TC.Geo.C96_needs_transformer"
   ],
   "note": "At least one position."
  },
  {
   "property": "C97",
   "status": "partial",
   "theorems": [
    "TC.C97_empty_selection_without_orientations_partial",
    "TC.C97_empty_selection_with_orientations_tears",
    "TC.C97_crop_tears",
    "TC.C97_match_timestamps_tears",
    "TC.C97_intersect_tears",
    "TC.C97_other_selections_without_orientations_partial"
   ],
   "note": "False for trajectories with orientations: the negation is proved for every such trajectory. Proved: trajectories without orientations."
  },
  {
   "property": "C98",
   "status": "partial",
   "theorems": [
    "TC.C98_orientations_after_scale_one_partial",
    "TC.C98_scaling_corrupts_orientations",
    "TC.C98_exactly_these_orientations_survive"
   ],
   "note": "False of the code: the negation is proved with scale 2, and exactly which orientations survive a scale other than 1 is determined. Proved: scale 1."
  },
  {
   "property": "C99",
   "status": "proved",
   "theorems": [
    "TC.C99_line_is_best_fit",
    "TC.C99_direction",
    "TC.C99_least_squares",
    "TC.C99_order",
    "TC.C99_smoothing"
   ],
   "note": "np.linalg.eigh enters through IsEigh (orthonormal eigenvectors, ascending eigenvalues), met over the reals by exists_eigh."
  },
  {
   "property": "C100",
   "status": "partial",
   "theorems": [
    "TC.C100_cubic_reproduced_partial",
    "TC.C100_cubic_reproduced_fails"
   ],
   "note": "False for two or more intervals (counterexample with a straight line). Proved for a single interval."
  },
  {
   "property": "C101",
   "status": "partial",
   "theorems": [
    "TC.C101_relative_errors_are_numbers_partial",
    "TC.C101_relative_errors_fail"
   ],
   "note": "False in consecutive mode across gaps larger than the distance (counterexample, 0/0). Proved for all pairs and for small gaps."
  },
  {
   "property": "C102",
   "status": "partial",
   "theorems": [
    "TC.C102_decomposition_without_orientations_partial",
    "TC.C102_decomposition_without_orientations_fails"
   ],
   "note": "False on climbing segments (counterexample)."
  },
  {
   "property": "C103",
   "status": "partial",
   "theorems": [
    "TC.C103_along_track_is_projection_partial",
    "TC.C103_last_sample_sign_wrong"
   ],
   "note": "False for a last sample far behind (every such sample)."
  },
  {
   "property": "C104",
   "status": "partial",
   "theorems": [
    "TC.C104_vertical_sign_differs"
   ],
   "note": "False: the vertical component has the opposite sign, on every level segment; the other two agree (same theorem)."
  },
  {
   "property": "C105",
   "status": "proved",
   "theorems": [
    "TC.C105_relative_summary",
    "TC.C105_hypotheses"
   ],
   "note": ""
  },
  {
   "property": "C106",
   "status": "partial",
   "theorems": [
    "TC.C106_frame_conversion_partial",
    "TC.C106_not_all_frames"
   ],
   "note": "False for four of the six right-handed frames; exact for enu and ned."
  },
  {
   "property": "C107",
   "status": "partial",
   "theorems": [
    "TC.C107_string_partial",
    "TC.C107_written",
    "TC.C107_blanks_not_from_string",
    "TC.C107_other_line_ends"
   ],
   "note": "False for columns separated by blanks (StringIO is exhausted after the first attempt) and for header entries containing another end of line of str.splitlines (vertical tab, U+2028, ...). Proved for delimiter-separated tables and for every written file."
  },
  {
   "property": "C108",
   "status": "partial",
   "theorems": [
    "TC.C108_words_partial",
    "TC.C108_not_all_names",
    "TC.C108_empty_unreadable"
   ],
   "note": "False for names with runs of white space and for empty trajectories; proved for every one-line name: its words come back, separated by single blanks."
  },
  {
   "property": "C109",
   "status": "partial",
   "theorems": [
    "TC.C109_append_mixes",
    "TC.C67_round_trip_partial",
    "TC.C68_append_unreadable"
   ],
   "note": "False: the mixture of name and unit of B with the data of A is proved for all results with equal group sizes. With mode \"w\" the property is C67/C68."
  },
  {
   "property": "C110",
   "status": "proved",
   "theorems": [
    "TC.C110_enabled",
    "TC.C110_full",
    "TC.C110_rejected",
    "TC.C110_constructed"
   ],
   "note": "Any set of parameters and matrix."
  },
  {
   "property": "C111",
   "status": "partial",
   "theorems": [
    "TC.C111_speed_components_not_left_out",
    "TC.C111_no_component_partial"
   ],
   "note": "False for all data whenever a time shift is estimated."
  },
  {
   "property": "C112",
   "status": "proved",
   "theorems": [
    "TC.C112_direct_helmert_optimal"
   ],
   "note": "Among all orthogonal matrices, scales and translations."
  },
  {
   "property": "C113",
   "status": "proved",
   "theorems": [
    "TC.C113_direct_leverarm_optimal",
    "TC.C113_direct_timeshift_optimal",
    "TC.C113_direct_returns"
   ],
   "note": ""
  },
  {
   "property": "C114",
   "status": "proved",
   "theorems": [
    "TC.C114_sensor_rotation_recovered"
   ],
   "note": ""
  },
  {
   "property": "C115",
   "status": "partial",
   "theorems": [
    "TC.C115_nan_iff",
    "TC.C115_constant_attitude_reported"
   ],
   "note": "False in general: for every data set with a constant attitude, estimating translation and lever arm x together gives NaN reported as a result. C115_nan_iff says exactly when a pass gives NaN."
  },
  {
   "property": "C116",
   "status": "proved",
   "theorems": [
    "TC.C116_pass_optimal",
    "TC.C116_fixpoint"
   ],
   "note": "Over the reals, for every solver that solves regular systems."
  },
  {
   "property": "C117",
   "status": "partial",
   "theorems": [
    "TC.C117_exact_recovered_partial",
    "TC.C117_gimbal_nan"
   ],
   "note": "Proved, for any choice of the seven parameters that leaves the neutral ones out, unless the rotation turns the x axis onto the z axis and the rotations about x and z are both estimated; false then (NaN reported as result) for all such data. Variance estimation switched off (with errorless data the variance factor is 0)."
  },
  {
   "property": "C118",
   "status": "proved",
   "theorems": [
    "TC.C118_estimation_leaves_trajectories"
   ],
   "note": ""
  },
  {
   "property": "C119",
   "status": "partial",
   "theorems": [
    "TC.C119_ate_leaves_others_partial",
    "TC.C119_rpe_leaves_others_partial",
    "TC.C119_ate_replaces_its_inputs"
   ],
   "note": "False for the two arguments: they are replaced by their matched versions (C119_ate_replaces_its_inputs). Proved for all other trajectories."
  },
  {
   "property": "C120",
   "status": "partial",
   "theorems": [
    "TC.Settings.C120_accepts_only_complete_partial",
    "TC.Settings.C120_result_is_settings_partial",
    "TC.Settings.C120_no_settings_accepted"
   ],
   "note": "False for nested settings: an entry that is not a dictionary is accepted (C120_no_settings_accepted). Proved otherwise."
  },
  {
   "property": "C121",
   "status": "partial",
   "theorems": [
    "TC.Report.C121_blocks_partial",
    "TC.Report.C121_zeros_break_alignment"
   ],
   "note": "False with zeros in the data, which are dropped like NaN (C121_zeros_break_alignment). Proved without zeros."
  },
  {
   "property": "C122",
   "status": "partial",
   "theorems": [
    "TC.Report.C122_first_report_partial",
    "TC.Report.C122_later_reports_wrong",
    "TC.Report.C122_listed_twice"
   ],
   "note": "False from the second report in millimetres on (C122_later_reports_wrong) and for a result listed twice (C122_listed_twice). Proved for the first report."
  },
  {
   "property": "C123",
   "status": "partial",
   "theorems": [
    "TC.Report.C123_zero_without_orientations",
    "TC.Report.C123_rotation_ate_partial"
   ],
   "note": "False: 0.0 is shown (C123_zero_without_orientations). With orientations the shown value is proved."
  },
  {
   "property": "C124",
   "status": "partial",
   "theorems": [
    "TC.Report.C124_short_name_partial",
    "TC.Report.C124_names_confused"
   ],
   "note": "False for names containing the separator (C124_names_confused). Proved for the others."
  },
  {
   "property": "C125",
   "status": "partial",
   "theorems": [
    "TC.Geo.C125_export_changes_trajectory",
    "TC.Geo.C125_export_keeps_partial"
   ],
   "note": "False: coordinates are converted and rounded, samples dropped (C125_export_changes_trajectory). Proved for trajectories already in the exported form."
  },
  {
   "property": "C126",
   "status": "partial",
   "theorems": [
    "TC.Geo.C126_rendering_changes_trajectories",
    "TC.Geo.C126_local_trajectory_keeps_partial",
    "TC.Geo.C126_others_keep_partial"
   ],
   "note": "False: the trajectories drawn are converted to geographic coordinates (C126_rendering_changes_trajectories). Proved for all others and if one has no transformer."
  },
  {
   "property": "C127",
   "status": "partial",
   "theorems": [
    "TC.Geo.C127_map_shows_positions_partial",
    "TC.Geo.C127_axis_order_swaps_map"
   ],
   "note": "False for axis orders beginning with yx (C127_axis_order_swaps_map). Proved for xy."
  },
  {
   "property": "C128",
   "status": "proved",
   "theorems": [
    "TC.C128_sort_keeps_direction"
   ],
   "note": "Direction well defined for both input and result."
  },
  {
   "property": "C129",
   "status": "proved",
   "theorems": [
    "TC.C129_points_move_to_local_lines",
    "TC.C129_iterated"
   ],
   "note": "Assumes that the fitted direction is a principal one of the points and that the neighbour search finds nearest centres; positive voxel size. Existence of principal directions over the reals is proved beside it."
  },
  {
   "property": "C130",
   "status": "proved",
   "theorems": [
    "TC.C130_pass_needs_enough_voxels",
    "TC.C130_sparse_points_cannot_be_smoothed"
   ],
   "note": "Positive voxel size, at least one point."
  },
  {
   "property": "C131",
   "status": "partial",
   "theorems": [
    "TC.C131_subset_is_consecutive_partial",
    "TC.C131_best_epochs_not_selected",
    "TC.C131_first_window_tears"
   ],
   "note": "False whatever the data: the window is shifted by one, so the last epoch of the best window is never selected (C131_best_epochs_not_selected, for distinct timestamps); if the first epochs vary most, the last epoch of the trajectory is put before them (C131_first_window_tears). Proved: everything is used for few epochs, otherwise num_obs consecutive epochs in order unless the best window comes first. The standard deviation is an arbitrary function of a window; the construction of the new AlignmentData from the two trajectories is not part of the model."
  },
  {
   "property": "C132",
   "status": "partial",
   "theorems": [
    "TC.C132_exact_copy_has_no_error_partial",
    "TC.C132_gimbal_no_result",
    "TC.C132_orientations_partial",
    "TC.C132_scaled_orientations_deviate",
    "TC.C132_missing_orientations_compared"
   ],
   "note": "False if the rotation turns the x axis onto the z axis and rotX and rotZ are estimated: no result (C132_gimbal_no_result). Proved for all other rotations, as total correctness of the call, over the real numbers with exact library routines (satisfiable: exactMetricLib_right; every real 3x3 matrix is shown to have a singular value decomposition). The standard deviations are given and not zero, no sensor rotation is estimated or orientations are missing. Rotation deviations are zero for scale 1; for another scale exactly the identity and the half turns about the axes have none (C132_scaled_orientations_deviate)."
  },
  {
   "property": "C133",
   "status": "partial",
   "theorems": [
    "TC.Plot.C133_values",
    "TC.Plot.C133_ascending_partial",
    "TC.Plot.C133_unsorted_mispairs",
    "TC.Plot.C133_scatter_partial",
    "TC.Plot.C133_scatter_mispairs",
    "TC.Plot.C133_matplotlib_mispairs",
    "TC.Plot.C133_matplotlib_scatter"
   ],
   "note": "False for every result whose samples are not stored in ascending order of the abscissa: abscissas (and positions in the report scatter plots) are sorted, deviations are not. Proved for ascending storage, and for scatter_deviations (matplotlib) in any order."
  },
  {
   "property": "C134",
   "status": "partial",
   "theorems": [
    "TC.Plot.C134_combined",
    "TC.Plot.C134_position",
    "TC.Plot.C134_rotation_partial",
    "TC.Plot.C134_rotation_mispairs",
    "TC.Plot.C134_rotation_false",
    "TC.Plot.C134_no_results"
   ],
   "note": "False for the three-component rotation plot whenever a result without orientations comes before one with. Proved for the other plots, and for that one if the results with orientations come first."
  },
  {
   "property": "C135",
   "status": "partial",
   "theorems": [
    "TC.Plot.C135_shape",
    "TC.Plot.C135_between_partial",
    "TC.Plot.C135_too_low",
    "TC.Plot.C135_figure"
   ],
   "note": "False at every point: the height is always too low (C135_too_low). Proved: shape, bounds from the numbers of smaller and of not greater deviations, and whose curves they are."
  },
  {
   "property": "C136",
   "status": "partial",
   "theorems": [
    "TC.Plot.C136_directed_partial",
    "TC.Plot.C136_labels_swapped",
    "TC.Plot.C136_small_values_missing",
    "TC.Plot.C136_rotations",
    "TC.Plot.C136_reports"
   ],
   "note": "False for matplotlib: the histograms x and z are exchanged if the deviations are not directed, and small values are not counted. Proved for the rest and for the histograms of the reports."
  },
  {
   "property": "C137",
   "status": "partial",
   "theorems": [
    "TC.Plot.C137_figure_partial",
    "TC.Plot.C137_no_figure_without_rotations",
    "TC.Plot.C137_attribute_error",
    "TC.Plot.C137_zero_curves",
    "TC.Plot.C137_names_shifted"
   ],
   "note": "False without orientations (no figure at all), for some without orientations (curves for what does not exist) and for results without samples (names shifted). Proved for results with orientations stored in ascending order."
  },
  {
   "property": "C138",
   "status": "proved",
   "theorems": [
    "TC.Plot.C138_position_bars",
    "TC.Plot.C138_rotation_bars",
    "TC.Plot.C138_bars_exist"
   ],
   "note": "Every result has deviations."
  },
  {
   "property": "C139",
   "status": "proved",
   "theorems": [
    "TC.Plot.C139_bars_do_not_overlap",
    "TC.Plot.C139_heights",
    "TC.Plot.C139_heights_of_rotations",
    "TC.Plot.C139_no_results"
   ],
   "note": "Without results there is a division by zero instead of an empty plot."
  },
  {
   "property": "C140",
   "status": "partial",
   "theorems": [
    "TC.Plot.C140_limits",
    "TC.Plot.C140_upper_limit_too_low",
    "TC.Plot.C140_colour_bar",
    "TC.Plot.C140_settings_ignored"
   ],
   "note": "False: the reports use the least value instead of the mean (C140_upper_limit_too_low), scatter_deviations ignores the settings (C140_settings_ignored). Proved: the limits are in order, colours and ticks inside, texts right."
  },
  {
   "property": "C141",
   "status": "partial",
   "theorems": [
    "TC.Plot.C141_single",
    "TC.Plot.C141_multi",
    "TC.Plot.C141_order_partial",
    "TC.Plot.C141_order_broken"
   ],
   "note": "Contents proved for all combinations; the order only with a relative evaluation, it is broken without (C141_order_broken)."
  },
  {
   "property": "C142",
   "status": "partial",
   "theorems": [
    "TC.Plot.C142_axes",
    "TC.Plot.C142_component",
    "TC.Plot.C142_combined",
    "TC.Plot.C142_rotation",
    "TC.Plot.C142_bar_title_partial",
    "TC.Plot.C142_bar_title_wrong"
   ],
   "note": "Axes and titles proved; the colour bar names a coordinate axis even for deviations along and across the track (C142_bar_title_wrong)."
  },
  {
   "property": "C147",
   "status": "proved",
   "theorems": [
    "TC.Plot.C147_abscissa"
   ],
   "note": "At least one trajectory."
  },
  {
   "property": "C149",
   "status": "proved",
   "theorems": [
    "TC.Plot.C149_positions",
    "TC.Plot.C149_orientations"
   ],
   "note": "The Euler angles of a rotation are an arbitrary function."
  },
  {
   "property": "C145",
   "status": "partial",
   "theorems": [
    "TC.C145_alignment_partial",
    "TC.C145_alignment_raises",
    "TC.C145_alignment_never_no",
    "TC.C145_rpe_reflexive",
    "TC.C145_rpe_never_no",
    "TC.C145_rpe_raises",
    "TC.C145_rpe_rotations_ignored"
   ],
   "note": "False: the answer is never no, different results raise AssertionError; relative errors with and without rotations are equal (C145_rpe_rotations_ignored). Proved: results that agree are equal."
  },
  {
   "property": "C150",
   "status": "partial",
   "theorems": [
    "TC.C150_same_length_partial",
    "TC.C150_reflexive",
    "TC.C150_lengths_raise",
    "TC.C150_one_equals_many",
    "TC.C150_other_system",
    "TC.C150_not_symmetric"
   ],
   "note": "False: different lengths raise, one sample equals any number of copies of it, the coordinate system is not compared, and the order matters. Proved for trajectories of the same length, up to coordinate systems."
  },
  {
   "property": "C151",
   "status": "proved",
   "theorems": [
    "TC.C151_table"
   ],
   "note": ""
  },
  {
   "property": "C152",
   "status": "partial",
   "theorems": [
    "TC.C152_angles",
    "TC.C152_no_angles",
    "TC.C152_no_samples"
   ],
   "note": "With orientations proved; without, the angles raise while the quaternions are absent (C152_no_angles)."
  },
  {
   "property": "C153",
   "status": "partial",
   "theorems": [
    "TC.C153_arithmetic_partial",
    "TC.C153_variance_too_small",
    "TC.C153_unit_lost"
   ],
   "note": "False for any two uncertain parameters: the variances are added as if they were standard deviations; the unit is lost. Proved for the values, and for the variance if one is zero."
  },
  {
   "property": "C155",
   "status": "partial",
   "theorems": [
    "TC.C155_extremes_partial",
    "TC.C155_lines_partial",
    "TC.C155_line_lost",
    "TC.C155_median_wrong",
    "TC.C155_rotation_extremes_partial",
    "TC.C155_rotation_lines_partial",
    "TC.C155_no_rotation_lines",
    "TC.C155_number_of_pairs"
   ],
   "note": "False for the median and the average (of bins, not of pairs) and for bins whose distances agree after rounding. Proved for the extremes, and for the lines at different distances."
  },
  {
   "property": "C143",
   "status": "partial",
   "theorems": [
    "TC.C143_table_partial",
    "TC.C143_time_shift_unit",
    "TC.C143_time_shift_exists"
   ],
   "note": "False for the time shift: its value is shown in milliseconds with the unit m (C143_time_shift_unit, for every such parameter). Proved for the other cells."
  },
  {
   "property": "C144",
   "status": "proved",
   "theorems": [
    "TC.C144_correlation",
    "TC.C144_correlation_of",
    "TC.C144_diagonal",
    "TC.C144_covariance",
    "TC.C144_all"
   ],
   "note": "The matrix is symmetric and positive semidefinite; a zero variance gives no correlation at all (example)."
  },
  {
   "property": "C146",
   "status": "partial",
   "theorems": [
    "TC.Report.C146_write",
    "TC.Report.C146_show_partial",
    "TC.Report.C146_new_directory_partial",
    "TC.Report.C146_plain_name_fails",
    "TC.Report.C146_missing_parent_fails"
   ],
   "note": "False for showing a report without a path (the default) or in the current directory (C146_plain_name_fails), and if several directories are missing: FileNotFoundError, nothing is written. Proved for the other paths; links and dots in paths are not modelled."
  },
  {
   "property": "C148",
   "status": "partial",
   "theorems": [
    "TC.Plot.C148_curves",
    "TC.Plot.C148_single",
    "TC.Plot.C148_exists",
    "TC.Plot.C148_units_partial",
    "TC.Plot.C148_label_of_one",
    "TC.Plot.C148_units_wrong",
    "TC.Plot.C148_matplotlib",
    "TC.Plot.C148_step",
    "TC.Plot.C148_width"
   ],
   "note": "False for the units in a report of results over metres and over seconds (C148_units_wrong). Everything else proved: curves, error bars, single results, and the figures of matplotlib."
  },
  {
   "property": "C154",
   "status": "partial",
   "theorems": [
    "TC.Plot.C154_local",
    "TC.Plot.C154_one_system_partial",
    "TC.Plot.C154_several_units",
    "TC.Plot.C154_labels_of_first",
    "TC.Plot.C154_symbols"
   ],
   "note": "False for coordinate systems with the same unit and other axes: the labels are those of the first trajectory (C154_labels_of_first). Proved for local coordinates, for one system, and for several units."
  },
  {
   "property": "C156",
   "status": "partial",
   "theorems": [
    "TC.Plot.C156_report_path",
    "TC.Plot.C156_report_path_exists",
    "TC.Plot.C156_matplotlib_partial",
    "TC.Plot.C156_matplotlib_stored_order",
    "TC.Plot.C156_report_figures",
    "TC.Plot.C156_report_title"
   ],
   "note": "False for matplotlib whenever the trajectory is not stored in ascending order (C156_matplotlib_stored_order). Proved for reports."
  },
  {
   "property": "C157",
   "status": "partial",
   "theorems": [
    "TC.C157_rpe_frames_do_not_matter_partial",
    "TC.C157_spatial_matching_depends_on_frames",
    "TC.C157_far_away_nothing_is_matched"
   ],
   "note": "False for matching by position (C157_spatial_matching_depends_on_frames, for all library routines). Proved for matching by time, with and without interpolation."
  },
  {
   "property": "C158",
   "status": "proved",
   "theorems": [
    "TC.C158_errors_of_all_pairs",
    "TC.C158_errors_of_consecutive_pairs",
    "TC.C158_rpe_all_pairs",
    "TC.C158_rpe_consecutive_pairs"
   ],
   "note": ""
  },
  {
   "property": "C159",
   "status": "partial",
   "theorems": [
    "TC.C159_positions_partial",
    "TC.C159_rotations",
    "TC.C159_dashes",
    "TC.C159_order",
    "TC.C159_comparison",
    "TC.C159_comparison_full",
    "TC.C159_unit_wrong"
   ],
   "note": "False after a report in millimetres: the lines in metres then hold a thousand times the value (C159_unit_wrong). Everything else proved, also from the trajectories to the text (C159_comparison). Roll, pitch, yaw and the mean rotation are functions of scipy."
  },
  {
   "property": "C160",
   "status": "proved",
   "theorems": [
    "TC.C160_exact_estimate_has_no_relative_error",
    "TC.C160_returns"
   ],
   "note": "Matching by position is excluded: there it is false (C157_far_away_nothing_is_matched)."
  },
  {
   "property": "C161",
   "status": "proved",
   "theorems": [
    "TC.C161_no_relative_error_means_same_trajectory"
   ],
   "note": ""
  },
  {
   "property": "C162",
   "status": "proved",
   "theorems": [
    "TC.Shared.C162_helmert",
    "TC.Shared.C162_leverarm",
    "TC.Shared.C162_translation",
    "TC.Shared.C162_rotation",
    "TC.Shared.set_refines",
    "TC.Shared.setVariances_refines",
    "TC.Shared.setVariancesEnabled_refines",
    "TC.Shared.validate_refines",
    "TC.Shared.enable_refines",
    "TC.Shared.disable_refines",
    "TC.Shared.setEnabledBoolList_refines"
   ],
   "note": "The refinement theorems say which methods C162_helmert and C162_leverarm apply to; they also justify the model of sets that own their parameters."
  },
  {
   "property": "C163",
   "status": "partial",
   "theorems": [
    "TC.Shared.C163_view_without_covariances",
    "TC.Shared.C163_diagonal_is_not_the_variances",
    "TC.Shared.C163_matrix_stale"
   ],
   "note": "The property is violated by the code; the theorems prove the violation for all alignments."
  },
  {
   "property": "C164",
   "status": "partial",
   "theorems": [
    "TC.Shared.C164_array_of_the_caller_changes",
    "TC.Shared.C164_array_of_the_caller_kept_partial"
   ],
   "note": "Violated for matrices of all parameters (proved for all of them); proved for matrices of the enabled parameters only."
  },
  {
   "property": "C165",
   "status": "partial",
   "theorems": [
    "TC.Shared.C165_rejected_matrix_is_kept",
    "TC.Shared.C165_rejected_values_change_nothing_partial"
   ],
   "note": "Violated for covariance matrices (proved for all rejected ones); proved for values and variances."
  },
  {
   "property": "C166",
   "status": "proved",
   "theorems": [
    "TC.C166_position_statistics",
    "TC.C166_rotation_statistics",
    "TC.C166_pairs",
    "TC.C66_median",
    "TC.IsMedian.unique"
   ],
   "note": "Errors that are numbers; C101 says when they are."
  },
  {
   "property": "C167",
   "status": "partial",
   "theorems": [
    "TC.C167_header_only",
    "TC.C167_after_rows",
    "TC.C167_first_samples_partial",
    "TC.C167_unnoticed",
    "TC.C167_old_file_lost",
    "TC.C167_wrong_number"
   ],
   "note": "Violated by the code: proved that for every trajectory of two or more samples there is an unnoticed interruption, and one that loses the old file. Proved: interruptions before the first row are noticed; after whole rows a beginning is read. After an interruption within the last number another number is read (C167_wrong_number). Missing: rows with fewer cells, which pandas fills with nan (nan is outside the model)."
  },
  {
   "property": "C168",
   "status": "partial",
   "theorems": [
    "TC.C168_first_samples_partial",
    "TC.C168_unnoticed",
    "TC.C168_other_result_relabelled",
    "TC.C168_relative_unnoticed",
    "TC.C168_wrong_number"
   ],
   "note": "Violated by the code, proved for all results with two or more samples (pairs in the last group). Within the last number of an absolute error another number is read (C168_wrong_number). Missing: rows with fewer cells, which pandas fills with nan."
  },
  {
   "property": "C169",
   "status": "proved",
   "theorems": [
    "TC.Plot.C169_equal_axes",
    "TC.Plot.C169_positions"
   ],
   "note": ""
  },
  {
   "property": "C170",
   "status": "partial",
   "theorems": [
    "TC.Plot.C170_orientations",
    "TC.Plot.C170_label_of_hidden",
    "TC.Plot.C170_cumulative",
    "TC.Plot.C170_compact_histogram"
   ],
   "note": "Violated by the code for the text at the abscissa of the plot of orientations (C170_label_of_hidden, for all such lists); everything else proved."
  },
  {
   "property": "C171",
   "status": "proved",
   "theorems": [
    "TC.C171_numbers",
    "TC.C171_times",
    "TC.C171_no_times",
    "TC.C171_dates",
    "TC.C171_orientations",
    "TC.C171_readable",
    "TC.C92_conversion"
   ],
   "note": "Quoted cells are outside the model. Seconds of the GPS week are in C92."
  },
  {
   "property": "C172",
   "status": "partial",
   "theorems": [
    "TC.C172_always_chronological"
   ],
   "note": "The property is violated by the code for every file; it holds for files that ask for chronological order."
  },
  {
   "property": "C173",
   "status": "partial",
   "theorems": [
    "TC.C173_as_if_selected",
    "TC.C173_nothing_left",
    "TC.C173_start_without_end",
    "TC.C173_counted_from_source"
   ],
   "note": "The last sentence is violated by the code (C173_start_without_end, C173_counted_from_source, for all trajectories); the rest is proved, with the span counted from the first sample of the source that is not too slow."
  },
  {
   "property": "C174",
   "status": "proved",
   "theorems": [
    "TC.C174_default_names",
    "TC.C174_given_name",
    "TC.C174_numbered"
   ],
   "note": ""
  },
  {
   "property": "C175",
   "status": "partial",
   "theorems": [
    "TC.C175_temporal",
    "TC.C175_spatial",
    "TC.C175_interpolation",
    "TC.C175_lines_move",
    "TC.C175_single_common_time_raises"
   ],
   "note": "Violated by the code for interpolation along lines (C175_lines_move: witness); proved for the other methods under the conditions named in the statement."
  },
  {
   "property": "C176",
   "status": "partial",
   "theorems": [
    "TC.C176_methods",
    "TC.C176_match",
    "TC.C176_match_lines",
    "TC.C176_alignment",
    "TC.C176_ate",
    "TC.C176_rpe",
    "TC.C176_approximated_positions",
    "TC.C176_approximation_partial",
    "TC.C176_orientations_depend_on_origin"
   ],
   "note": "Violated by the code for approximated orientations (C176_orientations_depend_on_origin). Proved for everything else, with every method of matching."
  },
  {
   "property": "C177",
   "status": "proved",
   "theorems": [
    "TC.C177_deviations",
    "TC.C177_statistics",
    "TC.C177_both_directions"
   ],
   "note": ""
  },
  {
   "property": "C178",
   "status": "proved",
   "theorems": [
    "TC.C178_construct",
    "TC.C178_methods",
    "TC.C178_match",
    "TC.C178_absolute",
    "TC.C178_statistics",
    "TC.C178_relative",
    "TC.C178_rpe",
    "TC.C178_match_lines",
    "TC.C178_rpe_lines"
   ],
   "note": "Estimation of alignments (thresholds with units), spatial sorting and approximations are outside the statement."
  },
  {
   "property": "C179",
   "status": "partial",
   "theorems": [
    "TC.Report.C179_head_partial",
    "TC.Report.C179_relative_only",
    "TC.Report.C179_zero_without_orientations",
    "TC.Report.C179_nan_without_rotations",
    "TC.Report.C179_unit_of_angles_ignored"
   ],
   "note": "Violated by the code for results without orientations and for units of angles other than degrees (last three theorems, for all such results); proved for results with orientations and degrees."
  },
  {
   "property": "C180",
   "status": "proved",
   "theorems": [
    "TC.C180_saving_again",
    "TC.C180_always_possible"
   ],
   "note": ""
  },
  {
   "property": "C181",
   "status": "proved",
   "theorems": [
    "TC.C181_alignment",
    "TC.C181_ate",
    "TC.C181_only_ratios_count",
    "TC.C181_first_factor",
    "TC.C181_variance_estimation"
   ],
   "note": ""
  },
  {
   "property": "C182",
   "status": "partial",
   "theorems": [
    "TC.Plot.C182_combined",
    "TC.Plot.C182_directions",
    "TC.Plot.C182_axes",
    "TC.Plot.C182_several",
    "TC.Plot.C182_unit_ignored",
    "TC.Plot.C182_bars",
    "TC.Plot.C182_bars_unit_ignored"
   ],
   "note": "Curves and axes proved. Violated by the code for any unit of angles other than degrees: the numbers stay the same (C182_unit_ignored)."
  },
  {
   "property": "C183",
   "status": "partial",
   "theorems": [
    "TC.Plot.C183_one",
    "TC.Plot.C183_several_partial",
    "TC.Plot.C183_several_mixed"
   ],
   "note": "Violated by the code for trajectories sorted differently (C183_several_mixed, for every mixture); proved otherwise."
  },
  {
   "property": "C184",
   "status": "proved",
   "theorems": [
    "TC.C184_ate",
    "TC.C184_alignment",
    "TC.C184_estimation",
    "TC.isGrad_movesTogether",
    "TC.C184_exact_arithmetic"
   ],
   "note": "Exact arithmetic: rounding with large coordinates is outside the model."
  },
  {
   "property": "C185",
   "status": "partial",
   "theorems": [
    "TC.C185_constructed",
    "TC.C185_cropped_partial"
   ],
   "note": "True after construction. False after cropping: the way from the first sample before the crop is counted as well, so the length is strictly too large whenever a removed earlier sample has another position."
  },
  {
   "property": "C186",
   "status": "proved",
   "theorems": [
    "TC.C186_card"
   ],
   "note": ""
  },
  {
   "property": "C187",
   "status": "partial",
   "theorems": [
    "TC.C187_arrays",
    "TC.C187_refused",
    "TC.C187_other_numbers_refused",
    "TC.C187_two_timestamps_accepted"
   ],
   "note": "True except that two timestamps are accepted for any number of poses from three on (broadcasting of the difference quotient), which gives a trajectory with fewer timestamps than poses."
  },
  {
   "property": "C188",
   "status": "partial",
   "theorems": [
    "TC.C188_constructed",
    "TC.C188_interpolated",
    "TC.C188_transformed_partial",
    "TC.C188_rigid_speeds",
    "TC.C188_approximated_partial"
   ],
   "note": "True after construction and interpolation. Violated by the code after transformations and smoothing: the speeds stay those before, so they are right exactly if no step of the path changes (translations); after rigid motions their sizes are right."
  },
  {
   "property": "C189",
   "status": "proved",
   "theorems": [
    "TC.C189_dict",
    "TC.C189_negation",
    "TC.C189_any_enabled",
    "TC.C189_sum"
   ],
   "note": ""
  },
  {
   "property": "C190",
   "status": "proved",
   "theorems": [
    "TC.C190_group_stds"
   ],
   "note": ""
  },
  {
   "property": "C191",
   "status": "partial",
   "theorems": [
    "TC.C191_apply_index",
    "TC.C191_crop",
    "TC.C191_intersect",
    "TC.C191_match_timestamps",
    "TC.C191_views",
    "TC.C191_table",
    "TC.C191_interpolate_drops_all",
    "TC.C191_total_length_last",
    "TC.C191_negation"
   ],
   "note": "True for selecting, the sorted views and the table. Violated by the code for the interpolation and the total length, which take the first and last stored sample for the first and last in time: every trajectory stored backwards loses all requested times and reports the arc length of its first sample."
  },
  {
   "property": "C192",
   "status": "partial",
   "theorems": [
    "TC.C192_select",
    "TC.C192_crop",
    "TC.C192_match_timestamps",
    "TC.C192_intersect",
    "TC.C192_interpolate_partial"
   ],
   "note": "True of the selections. Violated by the code for the speeds after interpolation: everything but the speeds agrees, the speeds agree exactly if the motion leaves each of them as it is."
  },
  {
   "property": "C193",
   "status": "proved",
   "theorems": [
    "TC.C193_order",
    "TC.C193_crop_intersect",
    "TC.C193_crop_twice",
    "TC.C193_match_timestamps",
    "TC.C193_interpolate_twice"
   ],
   "note": "C193_order applies to crop, inverse crop and intersect by keeps_crop, keeps_crop_inverse, keeps_intersect."
  },
  {
   "property": "C194",
   "status": "proved",
   "theorems": [
    "TC.C194_ate_moves_rigidly",
    "TC.C194_ate_no_sensor_rotation",
    "TC.C194_rpe_needs_100_m"
   ],
   "note": ""
  },
  {
   "property": "C195",
   "status": "proved",
   "theorems": [
    "TC.C195_path",
    "TC.C195_either_order",
    "TC.C195_positions",
    "TC.C195_end_to_end"
   ],
   "note": "That the mean of turned orientations is the turned mean is a hypothesis about scipy. For trajectories without orientations C195_positions."
  },
  {
   "property": "C196",
   "status": "partial",
   "theorems": [
    "TC.C196_right_is_negative",
    "TC.C196_never_with_orientations"
   ],
   "note": "Violated by the code for every input: without orientations both signs are the opposite of the documented ones; with orientations the documented axes are left-handed, so right and up are never both positive. The along-track direction is C103."
  },
  {
   "property": "C197",
   "status": "proved",
   "theorems": [
    "TC.C197_objects",
    "TC.C197_origin"
   ],
   "note": ""
  },
  {
   "property": "C198",
   "status": "partial",
   "theorems": [
    "TC.C198_labels_partial",
    "TC.C198_sortings_differ",
    "TC.C198_line_matching_forgets"
   ],
   "note": "Violated by the code: matching by interpolation leaves the two sortings as they are, so they differ afterwards exactly if they differed before; matching to fitted lines returns trajectories with EPSG code 0 sorted by time, whatever was given."
  },
  {
   "property": "C199",
   "status": "proved",
   "theorems": [
    "TC.C199_same_path",
    "TC.C199_restores"
   ],
   "note": "That spherical interpolation between two points of an arc runs along that arc is a hypothesis about scipy."
  },
  {
   "property": "C200",
   "status": "proved",
   "theorems": [
    "TC.Settings.C200_settings_file",
    "TC.Settings.C200_interrupted",
    "TC.Settings.C200_torn_text"
   ],
   "note": "Hypotheses about Python: the text of a finite float is a JSON number and is read as that float. Characters reach the file in order; the old settings are lost as soon as saving has begun. That the recursion bound of the reader is never reached is TC.Settings.loads_bound."
  },
  {
   "property": "C201",
   "status": "partial",
   "theorems": [
    "TC.C201_wider_in_time_partial",
    "TC.C201_wider_in_space_partial",
    "TC.C201_exact_pair_replaced"
   ],
   "note": "Violated by the code: with a wider limit an earlier, worse test sample takes the place of the exact one, for every reference sample with a test sample of its time and one before it. Proved: no matched reference sample and no pair in number is lost, if no test sample is equally near to two reference samples."
  },
  {
   "property": "C202",
   "status": "proved",
   "theorems": [
    "TC.C202_stretch",
    "TC.C202_crop"
   ],
   "note": "At the first time of a stretch the interpolation of the whole trajectory ends the preceding arc; that spherical interpolation reaches its ends is a hypothesis about scipy."
  },
  {
   "property": "C203",
   "status": "proved",
   "theorems": [
    "TC.C203_change",
    "TC.C203_histories",
    "TC.C203_read",
    "TC.C203_adjusted",
    "TC.C203_start"
   ],
   "note": "The whole-vector setters and getters are the groups ALL."
  },
  {
   "property": "C204",
   "status": "proved",
   "theorems": [
    "TC.C204_order",
    "TC.C204_steps",
    "TC.C204_crop",
    "TC.C204_move"
   ],
   "note": "Poses are times, positions and orientations; the arc lengths of a merged trajectory are C45. A trajectory without samples makes merging raise (C44_empty_input_raises)."
  },
  {
   "property": "C205",
   "status": "proved",
   "theorems": [
    "TC.C205_second_alignment"
   ],
   "note": "Hypotheses: positive weights, two different source points, moment matrix with positive determinant (points not in a plane and not mirrored; otherwise see C84 and C85)."
  },
  {
   "property": "C206",
   "status": "proved",
   "theorems": [
    "TC.C206_frames",
    "TC.C206_only_best",
    "TC.C206_order"
   ],
   "note": "Same hypotheses as C205. C206_only_best compares with all orthogonal matrices, also reflections, and all scales."
  },
  {
   "property": "C207",
   "status": "partial",
   "theorems": [
    "TC.C207_first_answer",
    "TC.C207_groups_partial",
    "TC.C207_thresholds_partial",
    "TC.C207_not_followed",
    "TC.C207_mixed_up"
   ],
   "note": "False: both values are cached properties. The first answer for the thresholds stays whatever is changed (C207_first_answer, C207_not_followed), and switching lever arm or time shift on an existing object mixes source and target positions (C207_mixed_up). Proved: without such a switch the groups are always current, and the first answer is that of the current observations and limits."
  },
  {
   "property": "C208",
   "status": "partial",
   "theorems": [
    "TC.C208_found",
    "TC.C208_all",
    "TC.C208_own_point_partial",
    "TC.C208_own_point_missed"
   ],
   "note": "Last sentence violated by the code: the id of a voxel is the concatenation of three cell numbers, so cells far apart share a voxel and its centre is far from its points (C208_own_point_missed). Proved for axes of at most nine voxels. Everything else is proved without restriction."
  },
  {
   "property": "C209",
   "status": "proved",
   "theorems": [
    "TC.C209_column",
    "TC.C209_adjusted",
    "TC.C209_start"
   ],
   "note": "The settings of an existing object do not change (see C207 for what happens otherwise)."
  },
  {
   "property": "C210",
   "status": "proved",
   "theorems": [
    "TC.C210_rows",
    "TC.C210_undo",
    "TC.C210_angle"
   ],
   "note": "Orientations are compared by their rotation matrices; the angle is that of the trace of the matrix, as in the model of rotangle. scipy has no empty sets."
  },
  {
   "property": "C211",
   "status": "proved",
   "theorems": [
    "TC.C211_cross",
    "TC.C211_turned"
   ],
   "note": ""
  },
  {
   "property": "C212",
   "status": "proved",
   "theorems": [
    "TC.C212_positions",
    "TC.C212_orientations",
    "TC.C177_statistics"
   ],
   "note": "Over the real numbers with exact square root and arccos; symmetry is C177_statistics."
  },
  {
   "property": "C213",
   "status": "proved",
   "theorems": [
    "TC.C213_interpolate",
    "TC.C213_arc_lengths",
    "TC.C213_transform",
    "TC.C213_ate",
    "TC.C213_ate_rotations",
    "TC.C213_rpe"
   ],
   "note": "Interpolation for strictly ascending timestamps. Exact arithmetic."
  },
  {
   "property": "C214",
   "status": "proved",
   "theorems": [
    "TC.C214_positions",
    "TC.C214_orientations"
   ],
   "note": "For the rotation biases the mean of equal rotations is assumed to be that rotation."
  },
  {
   "property": "C215",
   "status": "proved",
   "theorems": [
    "TC.C215_scale",
    "TC.C215_drift",
    "TC.C215_rotations"
   ],
   "note": "Entries that are nan or inf (pairs without distance, see C101) are not counted. Errors are signed only if a pair distance is negative, hence the absolute values."
  },
  {
   "property": "C216",
   "status": "proved",
   "theorems": [
    "TC.C216_bins",
    "TC.C216_sections"
   ],
   "note": "Sections for use_all_pose_pairs: consecutive pairs start at the first sample, so they are other pairs in a section. Exact arithmetic."
  },
  {
   "property": "C217",
   "status": "proved",
   "theorems": [
    "TC.C217_positions",
    "TC.C217_orientations"
   ],
   "note": "Without orientations the directed deviations use neighbouring poses, so they can differ where the trajectory is cut; nothing is claimed for them. Exact arithmetic."
  },
  {
   "property": "C218",
   "status": "partial",
   "theorems": [
    "TC.C218_constructed",
    "TC.C218_crop",
    "TC.C218_intersect",
    "TC.C218_interpolate",
    "TC.C218_rigid",
    "TC.C218_any_sequence_partial",
    "TC.C218_not_enlarged"
   ],
   "note": "The code breaks it for enlarging transformations, which leave the arc lengths as they are (C218_not_enlarged, for every trajectory that moves). Proved for rigid motion and the other operations. Exact arithmetic."
  },
  {
   "property": "C219",
   "status": "partial",
   "theorems": [
    "TC.C219_exchange_partial",
    "TC.C219_metres_not"
   ],
   "note": "Proved for equal timestamps (seconds) or equal arc lengths (metres). False in metres for different arc lengths (C219_metres_not, for any library routines)."
  },
  {
   "property": "C220",
   "status": "proved",
   "theorems": [
    "TC.C220_shifted",
    "TC.C220_best_shift",
    "TC.C220_bias_le_rms"
   ],
   "note": "Exact arithmetic and square root."
  },
  {
   "property": "C221",
   "status": "proved",
   "theorems": [
    "TC.C221_bounded_by_absolute",
    "TC.C221_all_pairs",
    "TC.C221_rotations",
    "TC.C221_any_orientations",
    "TC.C221_orientations_needed"
   ],
   "note": "Rotations over the real numbers, with the real arc cosine. Exact arithmetic."
  },
  {
   "property": "C222",
   "status": "proved",
   "theorems": [
    "TC.C222_positions",
    "TC.C222_rotations",
    "TC.C222_middle_needs_orientations"
   ],
   "note": "Rotations over the real numbers, with the real arc cosine. Exact arithmetic."
  },
  {
   "property": "C223",
   "status": "proved",
   "theorems": [
    "TC.C223_direct_is_best",
    "TC.C223_not_worse"
   ],
   "note": "Same assumptions as C112: equal weights, a singular value decomposition, Euler angles that describe the rotation, positive determinant (points that are not mirrored; the code fails for those, see C85). Exact arithmetic."
  },
  {
   "property": "C224",
   "status": "proved",
   "theorems": [
    "TC.C224_positions",
    "TC.C224_clock_error",
    "TC.C224_matched",
    "TC.C224_uniform"
   ],
   "note": "Top speed: the largest ratio of distance and time of consecutive samples. Exact arithmetic."
  },
  {
   "property": "C225",
   "status": "proved",
   "theorems": [
    "TC.C225_time_limit",
    "TC.C225_sampling",
    "TC.C225_interpolation",
    "TC.C225_distance_limit",
    "TC.C225_line_limit",
    "TC.C225_turn_limit",
    "TC.C225_turn_sampling",
    "TC.C225_turn_interpolation"
   ],
   "note": "Rotations over the real numbers, with the real arc cosine. A limit of 0 means no limit (see C33), so the limits are assumed to be positive. The nearest-neighbour search of scipy is assumed to find nearest neighbours. Exact arithmetic. After interpolation, for orientations: the spherical interpolation of scipy is assumed to divide the turn between two orientations in the given proportion (as in C228)."
  },
  {
   "property": "C226",
   "status": "proved",
   "theorems": [
    "TC.C226_time_limit",
    "TC.C226_sampling",
    "TC.C226_interpolation",
    "TC.C226_distance_limit",
    "TC.C226_turn_limit",
    "TC.C226_turn_sampling",
    "TC.C226_turn_interpolation",
    "TC.C226_posed_limit",
    "TC.C226_posed_sampling",
    "TC.C226_posed_interpolation"
   ],
   "note": "Rotations over the real numbers, with the real arc cosine. A limit of 0 means no limit (see C33), so the limits are assumed to be positive. The nearest-neighbour search of scipy is assumed to find nearest neighbours. Exact arithmetic. After interpolation, for orientations: the spherical interpolation of scipy is assumed to divide the turn between two orientations in the given proportion (as in C228)."
  },
  {
   "property": "C227",
   "status": "partial",
   "theorems": [
    "TC.C227_temporal_partial",
    "TC.C227_spatial_partial",
    "TC.C227_interpolation_partial",
    "TC.C227_line_matching_ignored"
   ],
   "note": "Proved for the three methods that match in place. False for NEAREST_SPATIAL_INTERPOLATED, proved for all inputs: the matched copies are discarded (C227_line_matching_ignored)."
  },
  {
   "property": "C228",
   "status": "proved",
   "theorems": [
    "TC.C228_positions",
    "TC.C228_orientations"
   ],
   "note": "The spherical interpolation of scipy is assumed to divide the turn between two orientations in the given proportion; a function on rotation matrices with this property is constructed beside the theorem. Orientations over the real numbers. Exact arithmetic."
  }
 ]
}