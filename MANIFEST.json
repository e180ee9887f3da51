{
 "claims": [
  {
   "property": "C01",
   "status": "proved",
   "theorems": [
    "Oplab.Props.C01_is_zyx_rotation",
    "Oplab.Props.C01_preserves_dot",
    "Oplab.Props.C01_preserves_cross",
    "Oplab.Props.C01_linear",
    "Oplab.Props.C01_identity"
   ],
   "note": ""
  },
  {
   "property": "C02",
   "status": "partial",
   "theorems": [
    "Oplab.Props.C02_inverse_false",
    "Oplab.Props.C02_inverse_partial",
    "Oplab.Props.C02_roundtrip_iff_partial"
   ],
   "note": "False as stated: entry f of inertial_to_body (L70) uses sin(roll) where cos(roll) is needed. Negation with a witness; x and y always recovered; exact set of attitudes that round-trip."
  },
  {
   "property": "C03",
   "status": "proved",
   "theorems": [
    "Oplab.Props.C03_on_line",
    "Oplab.Props.C03_degenerate",
    "Oplab.Props.C03_endpoints",
    "Oplab.Props.C03_between",
    "Oplab.Props.C03_monotone",
    "Oplab.Props.C03_affine_exact",
    "Oplab.Props.C03_altitude_bracket",
    "Oplab.Props.C03_altitude_past_end",
    "Oplab.Props.C03_usbl_fields",
    "Oplab.Props.C03_covariance"
   ],
   "note": ""
  },
  {
   "property": "C04",
   "status": "proved",
   "theorems": [
    "Oplab.Props.C04_heading_rule",
    "Oplab.Props.C04_heading_short_way",
    "Oplab.Props.C04_other_fields"
   ],
   "note": ""
  },
  {
   "property": "C05",
   "status": "partial",
   "theorems": [
    "Oplab.Props.C05_bracketed_false",
    "Oplab.Props.C05_heading_false",
    "Oplab.Props.C05_bracketed_partial",
    "Oplab.Props.C05_empty"
   ],
   "note": "False as stated: queries between the first two states return the second state; headings are interpolated without wrap. Partial theorem covers queries after the second state."
  },
  {
   "property": "C06",
   "status": "partial",
   "theorems": [
    "Oplab.Props.C06_bracketed_false",
    "Oplab.Props.C06_outside_kept_false",
    "Oplab.Props.C06_bracketed_partial",
    "Oplab.Props.C06_retained_partial",
    "Oplab.Props.C06_no_overlap"
   ],
   "note": "False as stated: index can stay at 0 (wraps to the last state), entries after the last centre time can be kept. Partial theorems give the exact conditions proved."
  },
  {
   "property": "C07",
   "status": "partial",
   "theorems": [
    "Oplab.Props.C07_recovers_centre_false",
    "Oplab.Props.C07_lever_arm_partial",
    "Oplab.Props.C07_correction_orthogonal_partial",
    "Oplab.Props.C07_negated_arm_recovers_partial"
   ],
   "note": "False as stated: the term is added where the transfer from the DVL to the centre subtracts it. Partial theorems: exact cross-product form, and exact recovery with the arm negated."
  },
  {
   "property": "C08",
   "status": "partial",
   "theorems": [
    "Oplab.Props.C08_defined_false",
    "Oplab.Props.C08_rates_partial",
    "Oplab.Props.C08_steady_turn_exact"
   ],
   "note": "False at the second of exactly two samples (AttributeError). Everything else proved."
  },
  {
   "property": "C09",
   "status": "proved",
   "theorems": [
    "Oplab.Props.C09_trapezoidal",
    "Oplab.Props.C09_exact_for_linear_velocity",
    "Oplab.Props.C09_additive",
    "Oplab.Props.C09_reversal",
    "Oplab.Props.C09_empty",
    "Oplab.Props.C09_centre_offset"
   ],
   "note": ""
  },
  {
   "property": "C10",
   "status": "proved",
   "theorems": [
    "Oplab.Props.C10_origin",
    "Oplab.Props.C10_defined_iff_valid",
    "Oplab.Props.C10_next_day",
    "Oplab.Props.C10_time_of_day",
    "Oplab.Props.C10_strictly_monotone",
    "Oplab.Props.C10_epoch_to_datetime",
    "Oplab.Props.C10_roundtrip"
   ],
   "note": ""
  },
  {
   "property": "C11",
   "status": "partial",
   "theorems": [
    "Oplab.Props.C11_agree_false",
    "Oplab.Props.C11_agree_iff_partial",
    "Oplab.Props.C11_unknown_rejected_partial",
    "Oplab.Props.C11_offset_seconds_partial"
   ],
   "note": "False as stated: CET is 0 h in read_timezone and 1 h in the mission loader; BST and numeric text also differ. Exact agreement set proved; unknown names rejected by both."
  },
  {
   "property": "C12",
   "status": "partial",
   "theorems": [
    "Oplab.Props.C12_decodes",
    "Oplab.Props.C12_other_characters_irrelevant",
    "Oplab.Props.C12_length_rejected_false",
    "Oplab.Props.C12_incomplete_rejected_partial",
    "Oplab.Props.C12_epoch_field",
    "Oplab.Props.C12_index_field"
   ],
   "note": "Decoding proved. The rejection of names of another length is false: surplus characters are ignored (zip); too short names are rejected only if a date or hour field is incomplete."
  },
  {
   "property": "C13",
   "status": "partial",
   "theorems": [
    "Oplab.Props.C13_same_entries",
    "Oplab.Props.C13_defined",
    "Oplab.Props.C13_stable",
    "Oplab.Props.C13_chronological_false",
    "Oplab.Props.C13_chronological_partial"
   ],
   "note": "False as stated: entries are sorted by the text of the time stamp, so 10.0 comes before 9.0. Partial: chronological for stamps with equally many integer digits. Same entries and stability proved."
  },
  {
   "property": "C14",
   "status": "partial",
   "theorems": [
    "Oplab.Props.C14_paired_false",
    "Oplab.Props.C14_crash_false",
    "Oplab.Props.C14_broken_time_false",
    "Oplab.Props.C14_paired_partial",
    "Oplab.Props.C14_alternating_partial",
    "Oplab.Props.C14_interpolation"
   ],
   "note": "False as stated: two telegrams of the same kind after the target leave a stale value from before it; malformed times still give fixes; two equal telegrams at the start crash. Partial: invariant of the parser, full pairing when both kinds follow the target."
  },
  {
   "property": "C15",
   "status": "proved",
   "theorems": [
    "Oplab.Props.C15_single_character",
    "Oplab.Props.C15_accepts"
   ],
   "note": ""
  },
  {
   "property": "C16",
   "status": "partial",
   "theorems": [
    "Oplab.Props.C16_every_ensemble_false",
    "Oplab.Props.C16_velocity_partial",
    "Oplab.Props.C16_altitude_partial",
    "Oplab.Props.C16_orientation_false"
   ],
   "note": "False as stated: the last ensemble is never exported; attitude lines are attached to the time of the ensemble before. Partial: exact record list for all ensembles but the last (velocity and altitude)."
  },
  {
   "property": "C17",
   "status": "partial",
   "theorems": [
    "Oplab.Props.C17_biocam_pairs_partial",
    "Oplab.Props.C17_acfr_pairs_partial",
    "Oplab.Props.C17_defined_partial",
    "Oplab.Props.C17_unique_false"
   ],
   "note": "One right image can be used twice; ACFR accepts a difference equal to the tolerance while BioCam does not. Nearest match and tolerance proved."
  },
  {
   "property": "C18",
   "status": "partial",
   "theorems": [
    "Oplab.Props.C18_independent_false",
    "Oplab.Props.C18_stale_stamps_false",
    "Oplab.Props.C18_first_images_partial",
    "Oplab.Props.C18_names_partial"
   ],
   "note": "False as stated: stamp lists are module globals that are never emptied, so the second dive gets the stamps of the first. Partial: dives preceded only by dives without images; file names always right."
  },
  {
   "property": "C19",
   "status": "partial",
   "theorems": [
    "Oplab.Props.C19_last_interval_false",
    "Oplab.Props.C19_two_samples_false",
    "Oplab.Props.C19_corrected_partial",
    "Oplab.Props.C19_outside_unchanged_partial"
   ],
   "note": "False as stated: the last interval of the tide record (and its first instant) is not corrected; nothing at all with two samples. Partial: exact corrected span, everything else unchanged."
  },
  {
   "property": "C20",
   "status": "partial",
   "theorems": [
    "Oplab.Props.C20_biocam_laser_false",
    "Oplab.Props.C20_merge_partial",
    "Oplab.Props.C20_refuses_other_origin"
   ],
   "note": "False as stated: BioCam laser entries (file name under camera3 only) raise KeyError. Partial: exact merged list otherwise; differing origins always refused."
  },
  {
   "property": "C21",
   "status": "partial",
   "theorems": [
    "Oplab.Props.C21_first_dive_skipped_false",
    "Oplab.Props.C21_force_never_skips",
    "Oplab.Props.C21_existing_output_kept",
    "Oplab.Props.C21_force_writes_all",
    "Oplab.Props.C21_second_run_skips",
    "Oplab.Props.C21_listed_twice",
    "Oplab.Props.C21_new_folder_parsed_partial"
   ],
   "note": "False as stated: the guard tests the output folder itself and starting the log creates that folder, so without -F the first dive is always skipped. Force never skips; existing output is never overwritten; new folders are parsed."
  },
  {
   "property": "C22",
   "status": "proved",
   "theorems": [
    "Oplab.Props.C22_lower_bound",
    "Oplab.Props.C22_defined"
   ],
   "note": ""
  },
  {
   "property": "C23",
   "status": "proved",
   "theorems": [
    "Oplab.Props.C23_last_of_each_time"
   ],
   "note": ""
  },
  {
   "property": "C24",
   "status": "partial",
   "theorems": [
    "Oplab.Props.C24_gaps",
    "Oplab.Props.C24_usbl_dump_false",
    "Oplab.Props.C24_usbl_dump_iff_partial"
   ],
   "note": "GAPS proved. USBL dump: the sign is applied to the degrees only; exact correctness condition proved."
  },
  {
   "property": "C25",
   "status": "partial",
   "theorems": [
    "Oplab.Props.C25_vehicle_shifted_false",
    "Oplab.Props.C25_vehicle_roundtrip_false",
    "Oplab.Props.C25_stereo_positions_partial",
    "Oplab.Props.C25_stereo_angles_false",
    "Oplab.Props.C25_header"
   ],
   "note": "False as stated: vehicle pose header is one line shorter than the reader expects; angles are written in degrees and read as radians with roll/pitch exchanged. Partial: stereo files keep origin, order, positions, names."
  },
  {
   "property": "C26",
   "status": "proved",
   "theorems": [
    "Oplab.Props.C26_rdi_iff",
    "Oplab.Props.C26_others_in_order"
   ],
   "note": ""
  },
  {
   "property": "C27",
   "status": "partial",
   "theorems": [
    "Oplab.Props.C27_orientation_round_trip",
    "Oplab.Props.C27_depth_round_trip",
    "Oplab.Props.C27_inertial_velocity_round_trip",
    "Oplab.Props.C27_usbl_round_trip",
    "Oplab.Props.C27_camera_round_trip",
    "Oplab.Props.C27_stereo_round_trip",
    "Oplab.Props.C27_body_velocity_partial",
    "Oplab.Props.C27_body_velocity_time_false",
    "Oplab.Props.C27_altitude_partial",
    "Oplab.Props.C27_altitude_sound_velocity_false",
    "Oplab.Props.C27_tide_false",
    "Oplab.Props.C27_invalid_not_exported"
   ],
   "note": "Exact round trip for orientation, depth, inertial velocity, USBL, cameras and stereo pairs. Body velocity and altitude round-trip up to one field each (negations given); tide records are not read back."
  },
  {
   "property": "C28",
   "status": "partial",
   "theorems": [
    "Oplab.Props.C28_time_and_depth",
    "Oplab.Props.C28_no_depth",
    "Oplab.Props.C28_ends_dropped_false",
    "Oplab.Props.C28_distance_partial",
    "Oplab.Props.C28_first_list_false",
    "Oplab.Props.C28_consistent_fixes_pass",
    "Oplab.Props.C28_inconsistent_fixes_fail"
   ],
   "note": "Depth/time stage proved exactly. False: the first and last two fixes are always dropped; the first returned list is not depth filtered when the distance filter is off. Partial: exact characterisation of the distance stage."
  },
  {
   "property": "C29",
   "status": "proved",
   "theorems": [
    "Oplab.Props.C29_built_diagonal",
    "Oplab.Props.C29_predict",
    "Oplab.Props.C29_correct",
    "Oplab.Props.C29_correct_shrinks",
    "Oplab.Props.C29_std",
    "Oplab.Props.C29_run"
   ],
   "note": ""
  },
  {
   "property": "C30",
   "status": "proved",
   "theorems": [
    "Oplab.Props.C30_jacobian"
   ],
   "note": ""
  },
  {
   "property": "C31",
   "status": "partial",
   "theorems": [
    "Oplab.Props.C31_clamp",
    "Oplab.Props.C31_clamp_id",
    "Oplab.Props.C31_innovation",
    "Oplab.Props.C31_indices",
    "Oplab.Props.C31_predict",
    "Oplab.Props.C31_correct",
    "Oplab.Props.C31_run_partial",
    "Oplab.Props.C31_initial_state_false",
    "Oplab.Props.C31_smoothed_false"
   ],
   "note": "Wrapping, innovations and all states after the first proved for whole runs. The initial state (compass headings up to 360) and smoothed states are not wrapped: negations given."
  },
  {
   "property": "C32",
   "status": "proved",
   "theorems": [
    "Oplab.Props.C32_rejected",
    "Oplab.Props.C32_accepted",
    "Oplab.Props.C32_hist_times",
    "Oplab.Props.C32_report",
    "Oplab.Props.C32_distance",
    "Oplab.Props.C32_returns"
   ],
   "note": ""
  },
  {
   "property": "C33",
   "status": "proved",
   "theorems": [
    "Oplab.Props.C33_schedule",
    "Oplab.Props.C33_states",
    "Oplab.Props.C33_within_end",
    "Oplab.Props.C33_terminates"
   ],
   "note": ""
  },
  {
   "property": "C34",
   "status": "proved",
   "theorems": [
    "Oplab.Props.C34_report",
    "Oplab.Props.C34_exceeded",
    "Oplab.Props.C34_run"
   ],
   "note": ""
  },
  {
   "property": "C35",
   "status": "partial",
   "theorems": [
    "Oplab.Props.C35_sound",
    "Oplab.Props.C35_complete_partial",
    "Oplab.Props.C35_same_time_false"
   ],
   "note": "Soundness for all lists; exact result for strictly increasing camera times. False for two images with one time: the second is dropped."
  },
  {
   "property": "C36",
   "status": "partial",
   "theorems": [
    "Oplab.Props.C36_measure",
    "Oplab.Props.C36_bayes_partial",
    "Oplab.Props.C36_likelihood_pos",
    "Oplab.Props.C36_underflow_false",
    "Oplab.Props.C36_run",
    "Oplab.Props.C36_draws",
    "Oplab.Props.C36_start"
   ],
   "note": "False as stated when likelihoods underflow (sum below 1e-20): the weights then do not sum to one. Everything else proved; Bayes' rule and unit sum proved above that threshold."
  },
  {
   "property": "C37",
   "status": "partial",
   "theorems": [
    "Oplab.Props.C37_resample",
    "Oplab.Props.C37_counts_partial",
    "Oplab.Props.C37_zero_offset_false",
    "Oplab.Props.C37_equal_weights_false",
    "Oplab.Props.C37_size",
    "Oplab.Props.C37_when",
    "Oplab.Props.C37_when_extremes"
   ],
   "note": "False at offset 0, and weights are not made equal. Size, order, membership and the position rule proved for all offsets; floor/ceil counts proved for offsets in (0,1)."
  },
  {
   "property": "C38",
   "status": "partial",
   "theorems": [
    "Oplab.Props.C38_crash",
    "Oplab.Props.C38_crash_plain",
    "Oplab.Props.C38_complete_partial",
    "Oplab.Props.C38_complete_plain_partial",
    "Oplab.Props.C38_single_false",
    "Oplab.Props.C38_bad_row",
    "Oplab.Props.C38_cov_lines"
   ],
   "note": "False for lists of one record (nothing is written). Crash alignment proved for all crash points, including torn last lines; completeness proved for two or more records."
  },
  {
   "property": "C39",
   "status": "partial",
   "theorems": [
    "Oplab.Props.C39_schedule",
    "Oplab.Props.C39_files_partial",
    "Oplab.Props.C39_spp_false",
    "Oplab.Props.C39_folder_exists",
    "Oplab.Props.C39_no_deadlock",
    "Oplab.Props.C39_exclusive",
    "Oplab.Props.C39_folder_terminates"
   ],
   "note": "False when SLAM++ output is requested: poses are changed while a thread may still write them. Schedule independence, folder creation, mutual exclusion, deadlock freedom and termination proved for records that are not changed."
  },
  {
   "property": "C40",
   "status": "partial",
   "theorems": [
    "Oplab.Props.C40_range_partial",
    "Oplab.Props.C40_no_start",
    "Oplab.Props.C40_exact",
    "Oplab.Props.C40_short_false",
    "Oplab.Props.C40_covariance",
    "Oplab.Props.C40_header"
   ],
   "note": "False for files of different lengths (TypeError). Exact range proved for files of equal length, and the exact result for files of any lengths (C40_exact); covariance columns and headers proved."
  },
  {
   "property": "C41",
   "status": "proved",
   "theorems": [
    "Oplab.Props.C41_information"
   ],
   "note": ""
  },
  {
   "property": "C42",
   "status": "partial",
   "theorems": [
    "Oplab.Props.C42_translate",
    "Oplab.Props.C42_back_and_forth",
    "Oplab.Props.C42_idempotent",
    "Oplab.Props.C42_one_part",
    "Oplab.Props.C42_outside",
    "Oplab.Props.C42_two_keywords_false"
   ],
   "note": "False for paths that contain two of the keywords (each translation rewrites all occurrences). Proved for paths with one keyword."
  },
  {
   "property": "C43",
   "status": "proved",
   "theorems": [
    "Oplab.Props.C43_round_trip",
    "Oplab.Props.C43_old_and_new",
    "Oplab.Props.C43_incomplete",
    "Oplab.Props.C43_unknown_format",
    "Oplab.Props.C43_vehicle_copy"
   ],
   "note": ""
  },
  {
   "property": "C44",
   "status": "partial",
   "theorems": [
    "Oplab.Props.C44_loaded",
    "Oplab.Props.C44_settings_dropped_false",
    "Oplab.Props.C44_built_partial",
    "Oplab.Props.C44_one_payload_false",
    "Oplab.Props.C44_payloads_false",
    "Oplab.Props.C44_unknown_payload"
   ],
   "note": "False as stated: settings not known to the writer are dropped, missions with several payloads or a single payload built in memory do not round-trip. Proved for missions as loaded from the documented fields."
  },
  {
   "property": "C45",
   "status": "proved",
   "theorems": [
    "Oplab.Props.C45_mean_std_array",
    "Oplab.Props.C45_running",
    "Oplab.Props.C45_runner",
    "Oplab.Props.C45_std_positive",
    "Oplab.Props.C45_square_nonneg"
   ],
   "note": ""
  },
  {
   "property": "C46",
   "status": "partial",
   "theorems": [
    "Oplab.Props.C46_zeroes_false",
    "Oplab.Props.C46_order_false",
    "Oplab.Props.C46_clipped_false",
    "Oplab.Props.C46_zeroes_last_partial",
    "Oplab.Props.C46_clipped_last_partial",
    "Oplab.Props.C46_within_partial",
    "Oplab.Props.C46_clipped_within_partial"
   ],
   "note": "False as stated: a zero (or clipped) first image value, or zeroes followed by values, bias the running mean. Partial: exact conditions under which they do not; the mean stays within the data."
  },
  {
   "property": "C47",
   "status": "partial",
   "theorems": [
    "Oplab.Props.C47_one_pixel_partial",
    "Oplab.Props.C47_image_false",
    "Oplab.Props.C47_no_trimming",
    "Oplab.Props.C47_monochrome_false"
   ],
   "note": "False as stated: on image stacks the per-pixel results are averaged in such a way that NaN or IndexError results (see C47_image_false, C47_monochrome_false). The per-pixel function is proved correct."
  },
  {
   "property": "C48",
   "status": "proved",
   "theorems": [
    "Oplab.Props.C48_fields",
    "Oplab.Props.C48_lossless"
   ],
   "note": ""
  },
  {
   "property": "C49",
   "status": "partial",
   "theorems": [
    "Oplab.Props.C49_unitary_partial",
    "Oplab.Props.C49_closed_partial",
    "Oplab.Props.C49_nearest",
    "Oplab.Props.C49_ties_even",
    "Oplab.Props.C49_monotone",
    "Oplab.Props.C49_wide_false"
   ],
   "note": "False for source depths above 24 bits (rounding to float32 reaches 1). Proved for up to 24 bits; closed interval for every depth."
  },
  {
   "property": "C50",
   "status": "proved",
   "theorems": [
    "Oplab.Props.C50_altitude_free",
    "Oplab.Props.C50_same_surface",
    "Oplab.Props.C50_identity",
    "Oplab.Props.C50_no_division_by_zero",
    "Oplab.Props.C50_direction",
    "Oplab.Props.C50_default"
   ],
   "note": ""
  },
  {
   "property": "C51",
   "status": "partial",
   "theorems": [
    "Oplab.Props.C51_eight_bit",
    "Oplab.Props.C51_normalised",
    "Oplab.Props.C51_gamma_range",
    "Oplab.Props.C51_monotone",
    "Oplab.Props.C51_across_images_false"
   ],
   "note": "Range and monotonicity within an image proved. Across images the order fails since the gamma branch depends on the whole image."
  },
  {
   "property": "C52",
   "status": "proved",
   "theorems": [
    "Oplab.Props.C52_aligned",
    "Oplab.Props.C52_order",
    "Oplab.Props.C52_failure"
   ],
   "note": "Proved for the branch with navigation (colour correction and bag files). pandas and pathlib are parameters; an altitude cell is None, NaN or a number."
  },
  {
   "property": "C53",
   "status": "partial",
   "theorems": [
    "Oplab.Props.C53_last_dive_only_false",
    "Oplab.Props.C53_two_dives_false",
    "Oplab.Props.C53_given_up_false",
    "Oplab.Props.C53_single_dive_partial"
   ],
   "note": "False: get_imagelist empties the lists for each dive, so only the last dive is used (C53_last_dive_only_false, for all dive lists; C53_two_dives_false and C53_given_up_false are witnesses). Proved for one dive."
  },
  {
   "property": "C54",
   "status": "proved",
   "theorems": [
    "Oplab.Props.C54_paired"
   ],
   "note": "Proved for all image lists and sets of existing depth maps."
  },
  {
   "property": "C55",
   "status": "proved",
   "theorems": [
    "Oplab.Props.C55_parameters",
    "Oplab.Props.C55_images",
    "Oplab.Props.C55_runs"
   ],
   "note": "Proved for both modes, every file system content and every set of written files."
  },
  {
   "property": "C56",
   "status": "proved",
   "theorems": [
    "Oplab.Props.C56_bin",
    "Oplab.Props.C56_one_bin",
    "Oplab.Props.C56_covered",
    "Oplab.Props.C56_left_over",
    "Oplab.Props.C56_schedule"
   ],
   "note": "Bins characterised for real arithmetic edges; every order of the parallel writes gives the same tables. C56_left_over shows that ranges that are no multiple of 0.1 m leave images in no bin, which does not contradict the claim. Random sampling inside a bin is a parameter."
  },
  {
   "property": "C57",
   "status": "proved",
   "theorems": [
    "Oplab.Props.C57_trim"
   ],
   "note": "Proved for all tables and lists."
  },
  {
   "property": "C58",
   "status": "partial",
   "theorems": [
    "Oplab.Props.C58_inliers_partial",
    "Oplab.Props.C58_goal_partial",
    "Oplab.Props.C58_no_iterations",
    "Oplab.Props.C58_last_not_best_false",
    "Oplab.Props.C58_refit_false"
   ],
   "note": "Proved: the returned inliers are those of the last sampled plane, and when the goal is met they are more than the goal. False: the last, not the best, iteration's inliers are returned, and the refit uses only three of them."
  },
  {
   "property": "C59",
   "status": "partial",
   "theorems": [
    "Oplab.Props.C59_distance_partial",
    "Oplab.Props.C59_distance_false",
    "Oplab.Props.C59_distance_general_false",
    "Oplab.Props.C59_ray_partial",
    "Oplab.Props.C59_ray_false",
    "Oplab.Props.C59_fit_false"
   ],
   "note": "Distance proved for unit normals and false otherwise (shared memory halves the effect of scaling: the normal is divided twice); ray intersection proved for unit normals with nonzero first coefficient."
  },
  {
   "property": "C60",
   "status": "partial",
   "theorems": [
    "Oplab.Props.C60_regular_partial",
    "Oplab.Props.C60_gimbal_partial",
    "Oplab.Props.C60_near_gimbal_false",
    "Oplab.Props.C60_near_gimbal_exists_false"
   ],
   "note": "Proved away from gimbal lock and exactly at it; false inside the isclose tolerance around gimbal lock."
  },
  {
   "property": "C61",
   "status": "partial",
   "theorems": [
    "Oplab.Props.C61_nothing_removed",
    "Oplab.Props.C61_mkdir",
    "Oplab.Props.C61_hybis",
    "Oplab.Props.C61_koyo20rov",
    "Oplab.Props.C61_koyo20rov_written",
    "Oplab.Props.C61_acfr_partial",
    "Oplab.Props.C61_acfr_written_partial",
    "Oplab.Props.C61_acfr_vehicle_false",
    "Oplab.Props.C61_acfr_stereo_false",
    "Oplab.Props.C61_oplab_to_acfr_partial",
    "Oplab.Props.C61_oplab_to_acfr_written",
    "Oplab.Props.C61_combined_raw_false"
   ],
   "note": "Proved: hybis and koyo20rov conversions overwrite nothing; oplab_to_acfr and acfr_to_oplab protect all but the named files. False: acfr_to_oplab guards names other than those it writes; oplab_to_acfr does not guard the combined RAW file and mission.cfg."
  },
  {
   "property": "C62",
   "status": "partial",
   "theorems": [
    "Oplab.Props.C62_result_partial",
    "Oplab.Props.C62_terminates_partial",
    "Oplab.Props.C62_quit_hangs_false"
   ],
   "note": "Proved for parsers that return or raise: every schedule ends within 2n steps with the results in order of submission. False when a parser calls Console.quit: waiting for the pool never ends under any schedule."
  },
  {
   "property": "C63",
   "status": "partial",
   "theorems": [
    "Oplab.Props.C63_returns_partial",
    "Oplab.Props.C63_retry_false"
   ],
   "note": "False: a success after a failed attempt raises AttributeError (Console.warning does not exist), C63_retry_false. Proved: at most five writes and the two ways it returns."
  },
  {
   "property": "C64",
   "status": "partial",
   "theorems": [
    "Oplab.Props.C64_attribute_false",
    "Oplab.Props.C64_navigation_false"
   ],
   "note": "False: correct_images reads an attribute that does not exist (C64_attribute_false, all settings) and navigation counts the time zone twice in different units (C64_navigation_false: right only for time zone 0)."
  },
  {
   "property": "C65",
   "status": "partial",
   "theorems": [
    "Oplab.Props.C65_time_partial",
    "Oplab.Props.C65_complete_cycles",
    "Oplab.Props.C65_stale_time_false",
    "Oplab.Props.C65_impossible_time_false",
    "Oplab.Props.C65_unreadable_ship_false"
   ],
   "note": "Proved for telegrams that state a valid time. False: an unreadable or impossible time still gives a fix with a made-up time; an unreadable ship telegram ends the parse."
  },
  {
   "property": "C66",
   "status": "partial",
   "theorems": [
    "Oplab.Props.C66_load_window",
    "Oplab.Props.C66_body_velocity_window_false"
   ],
   "note": "Proved for all kinds but body velocity, whose window uses the DVL's own time stamp field; negation given."
  },
  {
   "property": "C67",
   "status": "proved",
   "theorems": [
    "Oplab.Props.C67_motion",
    "Oplab.Props.C67_predict"
   ],
   "note": ""
  },
  {
   "property": "C68",
   "status": "partial",
   "theorems": [
    "Oplab.Props.C68_smooth_partial",
    "Oplab.Props.C68_history",
    "Oplab.Props.C68_run_partial",
    "Oplab.Props.C68_first_state_false"
   ],
   "note": "Proved for all states but the first, for whole runs. For the first state the code multiplies an ndarray entrywise where a matrix product is needed; a negative variance results: negation given."
  },
  {
   "property": "C69",
   "status": "partial",
   "theorems": [
    "Oplab.Props.C69_stamps_partial",
    "Oplab.Props.C69_fixes_skipped_false",
    "Oplab.Props.C69_early_fixes_false",
    "Oplab.Props.C69_exact_fix_false",
    "Oplab.Props.C69_weight"
   ],
   "note": "False as stated: fixes before dead reckoning make get_prior compare the two lists entry by entry, skipping valid fixes or failing; a fix without uncertainty divides by zero (C69_exact_fix_false). Proved when the first fix is not earlier than dead reckoning and all have an uncertainty."
  },
  {
   "property": "C70",
   "status": "partial",
   "theorems": [
    "Oplab.Props.C70_horizontal_partial",
    "Oplab.Props.C70_depth_false",
    "Oplab.Props.C70_depth_partial",
    "Oplab.Props.C70_altitude_false",
    "Oplab.Props.C70_noise"
   ],
   "note": "False about depth (vertical motion is added to the measured depth) and altitude (never updated). Horizontal motion, attitude and velocity proved."
  },
  {
   "property": "C71",
   "status": "proved",
   "theorems": [
    "Oplab.Props.C71_camera_columns",
    "Oplab.Props.C71_centre_columns",
    "Oplab.Props.C71_camera_text",
    "Oplab.Props.C71_centre_text",
    "Oplab.Props.C71_injective"
   ],
   "note": ""
  },
  {
   "property": "C72",
   "status": "partial",
   "theorems": [
    "Oplab.Props.C72_first_camera_partial",
    "Oplab.Props.C72_first_camera_sum",
    "Oplab.Props.C72_second_camera_false",
    "Oplab.Props.C72_nodes",
    "Oplab.Props.C72_plain_numbers",
    "Oplab.Props.C72_no_number",
    "Oplab.Props.C72_mixed_false"
   ],
   "note": "False for the second camera (absolute poses are written). Proved for the first camera."
  },
  {
   "property": "C73",
   "status": "proved",
   "theorems": [
    "Oplab.Props.C73_file_list",
    "Oplab.Props.C73_remove"
   ],
   "note": ""
  },
  {
   "property": "C74",
   "status": "proved",
   "theorems": [
    "Oplab.Props.C74_median"
   ],
   "note": ""
  },
  {
   "property": "C75",
   "status": "partial",
   "theorems": [
    "Oplab.Props.C75_result_partial",
    "Oplab.Props.C75_choice",
    "Oplab.Props.C75_nan_false",
    "Oplab.Props.C75_outlier_false"
   ],
   "note": "False when values are NaN or when all draws are outliers. Partial: the result is the mean of the set chosen."
  },
  {
   "property": "C76",
   "status": "partial",
   "theorems": [
    "Oplab.Props.C76_affine_partial",
    "Oplab.Props.C76_grey_pixel",
    "Oplab.Props.C76_grayscale_false",
    "Oplab.Props.C76_colour_channels"
   ],
   "note": "The affine map is proved; grayscale images never reach it (IndexError from the channel count)."
  },
  {
   "property": "C77",
   "status": "partial",
   "theorems": [
    "Oplab.Props.C77_file_list_partial",
    "Oplab.Props.C77_manual_false",
    "Oplab.Props.C77_missing_image_false",
    "Oplab.Props.C77_same_name_false"
   ],
   "note": "Proved when every image was processed and output names are distinct. False for manual balance, for any image that fails, and for equal names in different folders."
  },
  {
   "property": "C78",
   "status": "partial",
   "theorems": [
    "Oplab.Props.C78_listed_partial",
    "Oplab.Props.C78_manual_false"
   ],
   "note": "Proved for colour correction; false for manual balance, which ignores the list (C78_manual_false)."
  },
  {
   "property": "C79",
   "status": "partial",
   "theorems": [
    "Oplab.Props.C79_synchronised_partial",
    "Oplab.Props.C79_complete_false",
    "Oplab.Props.C79_before_first_depth_false",
    "Oplab.Props.C79_too_short"
   ],
   "note": "False as stated: when exactly one orientation precedes the first velocity, the first valid entry is deleted and the track does not start at 0; before the first depth or altitude sample the value comes from the line through the last and the first sample. Proved when altitude and depth cover the DVL record: exact list of entries, every value on its curve, trapezoidal positions."
  },
  {
   "property": "C80",
   "status": "partial",
   "theorems": [
    "Oplab.Props.C80_seafloor_partial",
    "Oplab.Props.C80_total_false"
   ],
   "note": "False when no altitude is later than the first depth (IndexError). Proved otherwise, up to the last depth."
  },
  {
   "property": "C81",
   "status": "partial",
   "theorems": [
    "Oplab.Props.C81_attitude_partial",
    "Oplab.Props.C81_every_entry_false",
    "Oplab.Props.C81_before_first_false"
   ],
   "note": "False between the first two orientations (no attitude) and before the first (extrapolated through the last and first). Proved after the second orientation."
  },
  {
   "property": "C82",
   "status": "partial",
   "theorems": [
    "Oplab.Props.C82_agrees_on_average",
    "Oplab.Props.C82_used_fixes_partial",
    "Oplab.Props.C82_exact_partial",
    "Oplab.Props.C82_single_fix_false",
    "Oplab.Props.C82_exact_false",
    "Oplab.Props.C82_no_fixes"
   ],
   "note": "C82_agrees_on_average holds for every increasing track and every accepted record, with positions taken on lines through successive track points (OnSegment). False in the rest: a record of a single fix during the track is an IndexError, and when two fixes precede the second track point the position of a fix is extrapolated from a later segment, so a constant shift is not recovered. Proved under OffsetRecords: which fixes are used (all during the track except the first of the record), that positions are on the track, and exact recovery of a constant shift."
  },
  {
   "property": "C83",
   "status": "partial",
   "theorems": [
    "Oplab.Props.C83_files_partial",
    "Oplab.Props.C83_named_like_filter_false",
    "Oplab.Props.C83_data_lost_false",
    "Oplab.Props.C83_filter_not_run_false"
   ],
   "note": "False as stated: a payload whose name contains _pf or _ekf gets no dead-reckoning position and is filed with that filter; with payloads laser and laser_pf and the particle filter on, the measurements of the second are lost; without USBL fixes the particle filter files have no positions. Proved for distinct names without these marks: the exact list of files."
  },
  {
   "property": "C84",
   "status": "partial",
   "theorems": [
    "Oplab.Props.C84_consistent_partial",
    "Oplab.Props.C84_no_fixes_false",
    "Oplab.Props.C84_particle_dvl_false",
    "Oplab.Props.C84_particle_dvl_partial"
   ],
   "note": "False for dead reckoning without USBL fixes (latitude and longitude stay unset) and for the particle filter poses of the DVL (the longitude is a pair, the latitude is not assigned). Proved for aligned dead reckoning, particle filter poses of the vehicle and EKF poses. The conversion metres_to_latlon is a parameter here."
  },
  {
   "property": "C85",
   "status": "partial",
   "theorems": [
    "Oplab.Props.C85_altitudes_partial",
    "Oplab.Props.C85_after_end",
    "Oplab.Props.C85_false",
    "Oplab.Props.C85_run"
   ],
   "note": "Proved for poses between the first and the last dead-reckoning entry, and for whole EKF runs over that interval whose end is an orientation time (C85_run, using C33_within_end). False in full: a pose after the last entry is an IndexError (C85_after_end, C85_false)."
  },
  {
   "property": "C86",
   "status": "partial",
   "theorems": [
    "Oplab.Props.C86_times",
    "Oplab.Props.C86_selection",
    "Oplab.Props.C86_single",
    "Oplab.Props.C86_refused",
    "Oplab.Props.C86_last_missing_false"
   ],
   "note": "False when the last image is missing: the selection then runs to the end of the record. The other parts are proved for all records; in C86_times the payload times are those of the payloads whose key contains _ekf."
  },
  {
   "property": "C87",
   "status": "partial",
   "theorems": [
    "Oplab.Props.C87_columns",
    "Oplab.Props.C87_detection_partial",
    "Oplab.Props.C87_row_in_window",
    "Oplab.Props.C87_last_row_false"
   ],
   "note": "Columns, thresholds and window are proved for all images (C87_detection_partial). False in full: the last window of the rows is never examined, so a line only there is missed (C87_last_row_false)."
  },
  {
   "property": "C88",
   "status": "partial",
   "theorems": [
    "Oplab.Props.C88_sync",
    "Oplab.Props.C88_spread",
    "Oplab.Props.C88_pairs_partial",
    "Oplab.Props.C88_few_images_false",
    "Oplab.Props.C88_missing_partners_false",
    "Oplab.Props.C88_names_partial",
    "Oplab.Props.C88_short_names_partial"
   ],
   "note": "The synchronisation and the selection are proved for all recordings; with more than 500 left images that all have a partner, 500 synchronised pairs are processed (C88_pairs_partial for times, C88_names_partial for BioCam file names, C88_short_names_partial for names of fewer than 26 characters, matched by equal names). False otherwise: with at most 500 images the synchronised lists are not used and images are paired by position (C88_few_images_false); with more than 500 images and missing partners the selection can run over the end of the list (C88_missing_partners_false)."
  },
  {
   "property": "C89",
   "status": "proved",
   "theorems": [
    "Oplab.Props.C89_cloud"
   ],
   "note": "For columns that are integers, each at most once and in increasing order, which is what the detection returns (C87_columns). The triangulation is a parameter here."
  },
  {
   "property": "C90",
   "status": "partial",
   "theorems": [
    "Oplab.Props.C90_stratified_partial",
    "Oplab.Props.C90_zero_maximum_false"
   ],
   "note": "Proved for a positive maximum. False for a maximum of zero: one point per bin is kept."
  },
  {
   "property": "C91",
   "status": "partial",
   "theorems": [
    "Oplab.Props.C91_reread_partial",
    "Oplab.Props.C91_no_detection_false",
    "Oplab.Props.C91_second_laser_false"
   ],
   "note": "Proved for the same settings and at least one detection per line. False if there is no detection (the file holds an empty item that cannot be read back) and if the second laser was switched on after the first run."
  },
  {
   "property": "C92",
   "status": "partial",
   "theorems": [
    "Oplab.Props.C92_planes_partial",
    "Oplab.Props.C92_second_same",
    "Oplab.Props.C92_second_laser_false",
    "Oplab.Props.C92_flat_endless_false"
   ],
   "note": "Proved for the first laser, with a positive minimum distance. False for the second laser: the list of planes is not emptied, so the planes of the first are reported again (C92_second_same, C92_second_laser_false). If all points have the same depth the loop never ends (C92_flat_endless_false). The fit of the mean plane is not part of this property."
  },
  {
   "property": "C93",
   "status": "partial",
   "theorems": [
    "Oplab.Props.C93_through_points",
    "Oplab.Props.C93_plane_angle",
    "Oplab.Props.C93_pitch_yaw",
    "Oplab.Props.C93_build_offset",
    "Oplab.Props.C93_build_plane_false",
    "Oplab.Props.C93_axes"
   ],
   "note": "Everything except the plane returned by build_plane is proved; that plane mixes the offset of the normalised normal with coefficients that are not normalised and misses the point (C93_build_plane_false)."
  },
  {
   "property": "C94",
   "status": "proved",
   "theorems": [
    "Oplab.Props.C94_least_squares",
    "Oplab.Props.C94_direct_linear",
    "Oplab.Props.C94_rectified"
   ],
   "note": "The singular value decomposition is a parameter: any unit vector minimising the residual. C94_rectified discharges the uniqueness hypothesis for every rectified pair with a baseline and every point off the plane of the camera centres."
  },
  {
   "property": "C95",
   "status": "partial",
   "theorems": [
    "Oplab.Props.C95_attenuating_partial",
    "Oplab.Props.C95_equal_altitudes_false",
    "Oplab.Props.C95_no_data"
   ],
   "note": "Proved if the positive altitudes of a pixel are different from each other. False otherwise: equal altitudes divide by zero and give infinite parameters (C95_equal_altitudes_false). The optimiser (scipy least_squares) is a parameter, assumed to respect the bounds given to it."
  },
  {
   "property": "C96",
   "status": "partial",
   "theorems": [
    "Oplab.Props.C96_same_bin_partial",
    "Oplab.Props.C96_shifted_false"
   ],
   "note": "Proved if altitudes and intensities are finite in the same bins. False otherwise: values that are not finite are removed from the two lists separately (C96_shifted_false)."
  },
  {
   "property": "C97",
   "status": "proved",
   "theorems": [
    "Oplab.Props.C97_layout"
   ],
   "note": "The fit of one pixel is a parameter here; C95 and C96 are about it."
  },
  {
   "property": "C98",
   "status": "partial",
   "theorems": [
    "Oplab.Props.C98_jobs_partial",
    "Oplab.Props.C98_one_processor_false"
   ],
   "note": "Proved for at least two processors. False for one processor with enough memory: zero jobs, which is an error."
  },
  {
   "property": "C99",
   "status": "partial",
   "theorems": [
    "Oplab.Props.C99_own_altitude_partial",
    "Oplab.Props.C99_several_false",
    "Oplab.Props.C99_wrong_altitude_false"
   ],
   "note": "Proved if exactly one row's stem is part of the image name. False in full: stems are matched as substrings, so image 12 fails if there is an image 2 (C99_several_false), and without its own altitude takes that of image 2 (C99_wrong_altitude_false)."
  },
  {
   "property": "C100",
   "status": "proved",
   "theorems": [
    "Oplab.Props.C100_pixel_size",
    "Oplab.Props.C100_succeeds",
    "Oplab.Props.C100_other_method",
    "Oplab.Props.C100_maintain_enlarge",
    "Oplab.Props.C100_maintain_reduce"
   ],
   "note": "Resampling itself (Pillow) is not modelled; sizes and crop boxes are."
  },
  {
   "property": "C101",
   "status": "proved",
   "theorems": [
    "Oplab.Props.C101_unit",
    "Oplab.Props.C101_uniform",
    "Oplab.Props.C101_patterns"
   ],
   "note": "OpenCV's conversion is a parameter; it is assumed to stay in 16 bits and, for the second statement, to keep constant images."
  },
  {
   "property": "C102",
   "status": "proved",
   "theorems": [
    "Oplab.Props.C102_points",
    "Oplab.Props.C102_distinct"
   ],
   "note": ""
  },
  {
   "property": "C103",
   "status": "partial",
   "theorems": [
    "Oplab.Props.C103_ordered",
    "Oplab.Props.C103_square_partial",
    "Oplab.Props.C103_exchanged_false"
   ],
   "note": "Proved for chessboards and asymmetric grids, and for symmetric grids with as many rows as columns. False for other symmetric grids: rows and columns are exchanged, and the second attempt uses the same sizes (C103_exchanged_false)."
  },
  {
   "property": "C104",
   "status": "proved",
   "theorems": [
    "Oplab.Props.C104_different"
   ],
   "note": ""
  },
  {
   "property": "C105",
   "status": "proved",
   "theorems": [
    "Oplab.Props.C105_reuse"
   ],
   "note": ""
  },
  {
   "property": "C106",
   "status": "proved",
   "theorems": [
    "Oplab.Props.C106_best",
    "Oplab.Props.C106_iterations"
   ],
   "note": "OpenCV's solver and numpy's standard deviation are parameters, assumed to give an average not below all errors and a standard deviation that is not negative."
  },
  {
   "property": "C107",
   "status": "partial",
   "theorems": [
    "Oplab.Props.C107_consistent_partial",
    "Oplab.Props.C107_mixed_false"
   ],
   "note": "Proved if the error decreases from iteration to iteration. False otherwise: the rectification is always that of the last iteration (C107_mixed_false)."
  },
  {
   "property": "C108",
   "status": "partial",
   "theorems": [
    "Oplab.Props.C108_first_partial",
    "Oplab.Props.C108_shifted_false"
   ],
   "note": "Proved for the first removal. False afterwards: the errors are those of all views and are zipped with the views left (C108_shifted_false)."
  },
  {
   "property": "C109",
   "status": "partial",
   "theorems": [
    "Oplab.Props.C109_radius_partial",
    "Oplab.Props.C109_rectangular_false"
   ],
   "note": "Proved for square boards. False for others: the index of a corner is computed with the number of rows (C109_rectangular_false)."
  },
  {
   "property": "C110",
   "status": "partial",
   "theorems": [
    "Oplab.Props.C110_size_partial",
    "Oplab.Props.C110_rounding_false"
   ],
   "note": "Proved up to one pixel for images that are relatively not wider than the target. False in full (C110_rounding_false)."
  },
  {
   "property": "C111",
   "status": "proved",
   "theorems": [
    "Oplab.Props.C111_taken_together"
   ],
   "note": "Reading a time from a name is a parameter (C13, C14)."
  },
  {
   "property": "C112",
   "status": "proved",
   "theorems": [
    "Oplab.Props.C112_normalised"
   ],
   "note": ""
  },
  {
   "property": "C113",
   "status": "partial",
   "theorems": [
    "Oplab.Props.C113_rows_partial",
    "Oplab.Props.C113_bound",
    "Oplab.Props.C113_same_column_false"
   ],
   "note": "Proved if the column difference is at least the row difference for every point, and always as a bound. False in full: the smaller of both differences is used (C113_same_column_false)."
  },
  {
   "property": "C114",
   "status": "partial",
   "theorems": [
    "Oplab.Props.C114_mono",
    "Oplab.Props.C114_detections",
    "Oplab.Props.C114_stereo_partial",
    "Oplab.Props.C114_laser_partial",
    "Oplab.Props.C114_reverse_pair_false",
    "Oplab.Props.C114_second_laser_false",
    "Oplab.Props.C114_suffix"
   ],
   "note": "Proved for mono, for stereo with two cameras, and for laser if the stereo calibration exists and that of a second laser does not. False in full: stereo with three cameras overwrites the calibration of the reversed pair (C114_reverse_pair_false) and laser that of the second laser (C114_second_laser_false)."
  },
  {
   "property": "C115",
   "status": "proved",
   "theorems": [
    "Oplab.Props.C115_again",
    "Oplab.Props.C115_nothing"
   ],
   "note": "Detection and solver are deterministic parameters."
  },
  {
   "property": "C116",
   "status": "proved",
   "theorems": [
    "Oplab.Props.C116_force",
    "Oplab.Props.C116_force_all"
   ],
   "note": "Detection and solver are parameters; the run is assumed to end without error."
  },
  {
   "property": "C117",
   "status": "partial",
   "theorems": [
    "Oplab.Props.C117_inputs",
    "Oplab.Props.C117_resized_partial",
    "Oplab.Props.C117_stale_false",
    "Oplab.Props.C117_few_images",
    "Oplab.Props.C117_laser"
   ],
   "note": "Proved for images of the same size, and for different sizes if there are no resized detections yet. False in full: resized detections are never renewed, not even with -FF (C117_stale_false)."
  },
  {
   "property": "C118",
   "status": "partial",
   "theorems": [
    "Oplab.Props.C118_all_pairs_partial",
    "Oplab.Props.C118_second_pair_false"
   ],
   "note": "Proved with -F, without suffix, for images of one size. False without -F: the program ends if the first pair is calibrated (C118_second_pair_false)."
  },
  {
   "property": "C119",
   "status": "partial",
   "theorems": [
    "Oplab.Props.C119_pixel",
    "Oplab.Props.C119_pixel_right",
    "Oplab.Props.C119_behind_false"
   ],
   "note": "Pixel and range proved; the statement that points behind a camera are refused is false (C119_behind_false)."
  },
  {
   "property": "C120",
   "status": "proved",
   "theorems": [
    "Oplab.Props.C120_round_trip",
    "Oplab.Props.C120_rectified"
   ],
   "note": "The singular value decomposition is a parameter that minimises the residual."
  },
  {
   "property": "C121",
   "status": "proved",
   "theorems": [
    "Oplab.Props.C121_distort_undistort",
    "Oplab.Props.C121_undistort_distort",
    "Oplab.Props.C121_no_distortion"
   ],
   "note": "OpenCV's distortion and its numerical inverse are assumed to be inverse to each other."
  },
  {
   "property": "C122",
   "status": "partial",
   "theorems": [
    "Oplab.Props.C122_round_trip_partial",
    "Oplab.Props.C122_tilted_false"
   ],
   "note": "Proved for rectifications about the optical axis; false for tilted rectifications (C122_tilted_false)."
  },
  {
   "property": "C123",
   "status": "partial",
   "theorems": [
    "Oplab.Props.C123_total_partial",
    "Oplab.Props.C123_left_only_false"
   ],
   "note": "Proved for points that the right camera sees or the left does not; a point that only the left camera sees is an exception (C123_left_only_false)."
  },
  {
   "property": "C124",
   "status": "partial",
   "theorems": [
    "Oplab.Props.C124_intrinsics_partial",
    "Oplab.Props.C124_projection_false",
    "Oplab.Props.C124_stereo_file_false"
   ],
   "note": "Proved for the intrinsics; false for the projection matrix, which is scaled as a whole, and for stereo files, for which the ratio is ignored (C124_projection_false, C124_stereo_file_false)."
  },
  {
   "property": "C125",
   "status": "partial",
   "theorems": [
    "Oplab.Props.C125_precision",
    "Oplab.Props.C125_coefficients_partial",
    "Oplab.Props.C125_rewrite_false"
   ],
   "note": "Precision and the coefficients of a new camera proved; for a camera that was read from a file only the first coefficient is written (C125_rewrite_false)."
  },
  {
   "property": "C126",
   "status": "partial",
   "theorems": [
    "Oplab.Props.C126_images",
    "Oplab.Props.C126_wildcard_partial",
    "Oplab.Props.C126_wildcard_errors",
    "Oplab.Props.C126_every_match_false"
   ],
   "note": "Proved for paths without wildcard; with wildcards only the first matching folder is used (C126_every_match_false)."
  },
  {
   "property": "C127",
   "status": "partial",
   "theorems": [
    "Oplab.Props.C127_aligned",
    "Oplab.Props.C127_stable",
    "Oplab.Props.C127_complete_partial",
    "Oplab.Props.C127_complete_false",
    "Oplab.Props.C127_modification_false",
    "Oplab.Props.C127_modification_partial"
   ],
   "note": "Alignment and stability proved for all histories. False in full: after a failed conversion the next request returns the times found before the failure (C127_complete_false), and times of modification are looked up in the current folder (C127_modification_false)."
  },
  {
   "property": "C128",
   "status": "partial",
   "theorems": [
    "Oplab.Props.C128_lookup_partial",
    "Oplab.Props.C128_no_rows",
    "Oplab.Props.C128_timestamp_file_only_false",
    "Oplab.Props.C128_accepted"
   ],
   "note": "Proved for distinct indices. False in full: a camera with a timestamp file and no format is accepted and never gives a time (C128_timestamp_file_only_false). It is assumed that pandas keeps values assigned to rows."
  },
  {
   "property": "C129",
   "status": "proved",
   "theorems": [
    "Oplab.Props.C129_limits"
   ],
   "note": "Entries parse and process are assumed to have both limits."
  },
  {
   "property": "C130",
   "status": "partial",
   "theorems": [
    "Oplab.Props.C130_equivalent",
    "Oplab.Props.C130_accepted",
    "Oplab.Props.C130_order_false",
    "Oplab.Props.C130_manual_false"
   ],
   "note": "Acceptance proved for configurations with a section on colour correction. False in full: the altitude limits of the last dive are used (C130_order_false), and without that section the comparison fails (C130_manual_false)."
  },
  {
   "property": "C131",
   "status": "partial",
   "theorems": [
    "Oplab.Props.C131_complete",
    "Oplab.Props.C131_protected",
    "Oplab.Props.C131_crash_partial",
    "Oplab.Props.C131_crash_false"
   ],
   "note": "Proved for runs that end, and for crashes of runs without -F. False in full: after a forced run that crashed, files of two runs are used together (C131_crash_false)."
  },
  {
   "property": "C132",
   "status": "partial",
   "theorems": [
    "Oplab.Props.C132_correct_fails",
    "Oplab.Props.C132_correct_false",
    "Oplab.Props.C132_paths_split",
    "Oplab.Props.C132_parse_partial"
   ],
   "note": "Proved for parse. False for correct, which always fails: the path is split into its characters, and the options of memmap are missing (C132_correct_fails, C132_paths_split)."
  },
  {
   "property": "C133",
   "status": "partial",
   "theorems": [
    "Oplab.Props.C133_choice",
    "Oplab.Props.C133_consistent",
    "Oplab.Props.C133_defaults",
    "Oplab.Props.C133_no_default_false"
   ],
   "note": "Proved in full for known image systems; for others without correct_images.yaml the program fails with an exception (C133_no_default_false)."
  },
  {
   "property": "C134",
   "status": "partial",
   "theorems": [
    "Oplab.Props.C134_distinct_partial",
    "Oplab.Props.C134_fraction_false"
   ],
   "note": "Proved for brightness and contrast rounded down; fractions are lost (C134_fraction_false)."
  },
  {
   "property": "C135",
   "status": "partial",
   "theorems": [
    "Oplab.Props.C135_all_partial",
    "Oplab.Props.C135_same_name_false"
   ],
   "note": "Proved for distinct names. False in full: cameras with the same name, as in a default camera.yaml, end the program (C135_same_name_false)."
  },
  {
   "property": "C136",
   "status": "partial",
   "theorems": [
    "Oplab.Props.C136_stereo_file_false",
    "Oplab.Props.C136_stereo_file_partial",
    "Oplab.Props.C136_laser_file"
   ],
   "note": "Proved in full for the laser camera; for the stereo cameras without short lines and with numbers without a decimal point. False in full: a short line aborts the parser (C136_stereo_file_false)."
  },
  {
   "property": "C137",
   "status": "partial",
   "theorems": [
    "Oplab.Props.C137_laser_paths_iff_partial",
    "Oplab.Props.C137_laser_paths_false",
    "Oplab.Props.C137_first_thousand_partial"
   ],
   "note": "Exact condition proved. False in full (C137_laser_paths_false)."
  },
  {
   "property": "C138",
   "status": "partial",
   "theorems": [
    "Oplab.Props.C138_ntnu_time_partial",
    "Oplab.Props.C138_ntnu_time_false",
    "Oplab.Props.C138_ntnu_order_false",
    "Oplab.Props.C138_ntnu_order_partial"
   ],
   "note": "The time that is read and the order within a second proved. False in full: four decimals are taken for milliseconds (C138_ntnu_time_false, C138_ntnu_order_false)."
  },
  {
   "property": "C139",
   "status": "partial",
   "theorems": [
    "Oplab.Props.C139_system_format_unused",
    "Oplab.Props.C139_system_first",
    "Oplab.Props.C139_voyis_false",
    "Oplab.Props.C139_stills_partial",
    "Oplab.Props.C139_laser_paths"
   ],
   "note": "Proved for stills with PPS names and with the offset subtracted. False in full: SYSTEM names are not recognised, laser images get the paths of stills (C139_voyis_false, C139_laser_paths, C139_system_format_unused)."
  },
  {
   "property": "C140",
   "status": "partial",
   "theorems": [
    "Oplab.Props.C140_fraction_iff_partial",
    "Oplab.Props.C140_fraction_false"
   ],
   "note": "Exact condition proved: three digits or zero (C140_fraction_false)."
  },
  {
   "property": "C141",
   "status": "partial",
   "theorems": [
    "Oplab.Props.C141_heading",
    "Oplab.Props.C141_depths_kept",
    "Oplab.Props.C141_depths_complete",
    "Oplab.Props.C141_depth_false"
   ],
   "note": "Headings, kept depths and completeness of values proved. False for interpolation, because repeated values are dropped (C141_depth_false)."
  },
  {
   "property": "C142",
   "status": "partial",
   "theorems": [
    "Oplab.Props.C142_line",
    "Oplab.Props.C142_tide_file_partial",
    "Oplab.Props.C142_tide_file_false",
    "Oplab.Props.C142_std_false",
    "Oplab.Props.C142_std_partial"
   ],
   "note": "Proved for all measurements but the first, which is lost (C142_tide_file_false); the standard deviation is negative for heights below the datum (C142_std_false)."
  },
  {
   "property": "C143",
   "status": "proved",
   "theorems": [
    "Oplab.Props.C143_position",
    "Oplab.Props.C143_time"
   ],
   "note": "Proved in full for positions with five decimals of minutes."
  },
  {
   "property": "C144",
   "status": "partial",
   "theorems": [
    "Oplab.Props.C144_missing_false",
    "Oplab.Props.C144_run_false",
    "Oplab.Props.C144_measured_kept",
    "Oplab.Props.C144_isolated_partial"
   ],
   "note": "Proved: measured values kept, isolated missing ones lie between their neighbours. False for the first and last record and for runs (C144_missing_false, C144_run_false)."
  },
  {
   "property": "C145",
   "status": "partial",
   "theorems": [
    "Oplab.Props.C145_between_false",
    "Oplab.Props.C145_heading_false",
    "Oplab.Props.C145_line_partial",
    "Oplab.Props.C145_at_record",
    "Oplab.Props.C145_last_partial",
    "Oplab.Props.C145_steady_partial"
   ],
   "note": "Proved at the times of records, in the last interval and for steady motion, and which records are used. False in full: the records after the image are used (C145_between_false), and headings are not wrapped (C145_heading_false)."
  },
  {
   "property": "C146",
   "status": "partial",
   "theorems": [
    "Oplab.Props.C146_reference_false",
    "Oplab.Props.C146_stops_iff_partial",
    "Oplab.Props.C146_reference_partial"
   ],
   "note": "Proved away from the equator and the Greenwich meridian. False in full (C146_reference_false)."
  },
  {
   "property": "C147",
   "status": "partial",
   "theorems": [
    "Oplab.Props.C147_acfr_empty",
    "Oplab.Props.C147_velocities_partial",
    "Oplab.Props.C147_altitudes_partial",
    "Oplab.Props.C147_depths_partial",
    "Oplab.Props.C147_orientations_partial",
    "Oplab.Props.C147_complete_false"
   ],
   "note": "Proved in the format oplab for known message types. False in full: the format acfr gives nothing (C147_acfr_empty, C147_complete_false), unknown types lose the rest of the bag."
  },
  {
   "property": "C148",
   "status": "partial",
   "theorems": [
    "Oplab.Props.C148_missing_false",
    "Oplab.Props.C148_teledyne_partial",
    "Oplab.Props.C148_cola2_speed"
   ],
   "note": "Proved for cola2, and for Teledyne when the track that is used is complete. False in full (C148_missing_false)."
  },
  {
   "property": "C149",
   "status": "partial",
   "theorems": [
    "Oplab.Props.C149_heading_false",
    "Oplab.Props.C149_heading_partial",
    "Oplab.Props.C149_std_false",
    "Oplab.Props.C149_std_partial"
   ],
   "note": "Proved: range of headings, rotation of velocities, uncertainties without mounting angle. False in full: headings are not turned (C149_heading_false), uncertainties become negative (C149_std_false)."
  },
  {
   "property": "C150",
   "status": "partial",
   "theorems": [
    "Oplab.Props.C150_fill",
    "Oplab.Props.C150_nmea_false",
    "Oplab.Props.C150_pose_false",
    "Oplab.Props.C150_navsat_false",
    "Oplab.Props.C150_dump_false",
    "Oplab.Props.C150_agree_false"
   ],
   "note": "Proved for positions given in degrees. False for NMEA, ROS poses, satellite fixes and USBL dumps (C150_*_false)."
  },
  {
   "property": "C151",
   "status": "partial",
   "theorems": [
    "Oplab.Props.C151_std_false",
    "Oplab.Props.C151_std_partial",
    "Oplab.Props.C151_body",
    "Oplab.Props.C151_get_std",
    "Oplab.Props.C151_ntnu_iff",
    "Oplab.Props.C151_pressure_false",
    "Oplab.Props.C151_pressure_partial"
   ],
   "note": "Proved for velocities, the NTNU filter and the speed model. False for the vertical uncertainty of the INS (C151_std_false) and the pressure (C151_pressure_false)."
  },
  {
   "property": "C152",
   "status": "partial",
   "theorems": [
    "Oplab.Props.C152_time_iff_partial",
    "Oplab.Props.C152_time_false",
    "Oplab.Props.C152_difference"
   ],
   "note": "Exact condition proved; differences of times are right. False in full (C152_time_false)."
  },
  {
   "property": "C153",
   "status": "partial",
   "theorems": [
    "Oplab.Props.C153_found_iff_partial",
    "Oplab.Props.C153_found_false",
    "Oplab.Props.C153_others"
   ],
   "note": "Exact condition proved: labels of one character. False in full (C153_found_false)."
  },
  {
   "property": "C154",
   "status": "partial",
   "theorems": [
    "Oplab.Props.C154_pairs_partial",
    "Oplab.Props.C154_pairs_false"
   ],
   "note": "What is returned is proved: every image with itself. False in full (C154_pairs_false)."
  },
  {
   "property": "C155",
   "status": "proved",
   "theorems": [
    "Oplab.Props.C155_values_read_back",
    "Oplab.Props.C155_nothing_lost",
    "Oplab.Props.C155_rejected_iff"
   ],
   "note": "Proved in full."
  },
  {
   "property": "C156",
   "status": "partial",
   "theorems": [
    "Oplab.Props.C156_job_false",
    "Oplab.Props.C156_records_partial",
    "Oplab.Props.C156_job_repeats",
    "Oplab.Props.C156_plain_record",
    "Oplab.Props.C156_usbl_range_rejected",
    "Oplab.Props.C156_range_record_stops",
    "Oplab.Props.C156_header_skipped"
   ],
   "note": "Exact list of observations proved. False in full: JobData lines repeat the previous observation (C156_job_false) and a complete USBLRangeObs record stops the parser (C156_usbl_range_rejected)."
  },
  {
   "property": "C157",
   "status": "partial",
   "theorems": [
    "Oplab.Props.C157_each_once_in_order",
    "Oplab.Props.C157_next_or_last_partial",
    "Oplab.Props.C157_none",
    "Oplab.Props.C157_closest_false",
    "Oplab.Props.C157_gap"
   ],
   "note": "Proved: once, in order, the next position at or after the observation, or the last one. False in full: not the closest one (C157_closest_false)."
  },
  {
   "property": "C158",
   "status": "proved",
   "theorems": [
    "Oplab.Props.C158_distance",
    "Oplab.Props.C158_north_east",
    "Oplab.Props.C158_std"
   ],
   "note": "Proved in full."
  },
  {
   "property": "C159",
   "status": "partial",
   "theorems": [
    "Oplab.Props.C159_false",
    "Oplab.Props.C159_mrt_iff_partial",
    "Oplab.Props.C159_gga_iff_partial",
    "Oplab.Props.C159_differences",
    "Oplab.Props.C159_fix_time"
   ],
   "note": "Exact conditions proved; differences of times are right. False in full (C159_false): the zone of the computer is used, and the offset has the wrong sign for GGA."
  },
  {
   "property": "C160",
   "status": "partial",
   "theorems": [
    "Oplab.Props.C160_rows_independent",
    "Oplab.Props.C160_row_read",
    "Oplab.Props.C160_other_beacon",
    "Oplab.Props.C160_short_row",
    "Oplab.Props.C160_columns",
    "Oplab.Props.C160_time_from_row",
    "Oplab.Props.C160_time_from_file",
    "Oplab.Props.C160_fixes_partial",
    "Oplab.Props.C160_unreadable_time_stops",
    "Oplab.Props.C160_false"
   ],
   "note": "Proved for logs with readable times. False in full: an unreadable time stops the parser (C160_unreadable_time_stops, C160_false)."
  },
  {
   "property": "C161",
   "status": "proved",
   "theorems": [
    "Oplab.Props.C161_camera_time",
    "Oplab.Props.C161_ship_time"
   ],
   "note": "Proved in full for times of six digits."
  },
  {
   "property": "C162",
   "status": "partial",
   "theorems": [
    "Oplab.Props.C162_first_lost_false",
    "Oplab.Props.C162_kept_iff_partial",
    "Oplab.Props.C162_increasing",
    "Oplab.Props.C162_merged"
   ],
   "note": "Exact set of records proved. False in full: the first record of every file is lost (C162_first_lost_false)."
  },
  {
   "property": "C163",
   "status": "partial",
   "theorems": [
    "Oplab.Props.C163_files_false",
    "Oplab.Props.C163_files_partial"
   ],
   "note": "Proved for names that do not end in F, I or X. False in full (C163_files_false)."
  },
  {
   "property": "C164",
   "status": "partial",
   "theorems": [
    "Oplab.Props.C164_values_partial",
    "Oplab.Props.C164_heading_false",
    "Oplab.Props.C164_kept"
   ],
   "note": "Proved for positions and for headings that do not pass north. False in full (C164_heading_false)."
  },
  {
   "property": "C165",
   "status": "partial",
   "theorems": [
    "Oplab.Props.C165_no_laser_false",
    "Oplab.Props.C165_written_iff_partial",
    "Oplab.Props.C165_paths_distinct",
    "Oplab.Props.C165_laser_folder"
   ],
   "note": "Exact condition proved. False in full: without laser images with a pose nothing is written (C165_no_laser_false)."
  },
  {
   "property": "C166",
   "status": "proved",
   "theorems": [
    "Oplab.Props.C166_moved",
    "Oplab.Props.C166_seafloor",
    "Oplab.Props.C166_rigid",
    "Oplab.Props.C166_laser_at_dvl"
   ],
   "note": "Proved in full."
  },
  {
   "property": "C167",
   "status": "partial",
   "theorems": [
    "Oplab.Props.C167_out_of_order_false",
    "Oplab.Props.C167_in_order_partial",
    "Oplab.Props.C167_bad_first_time"
   ],
   "note": "Proved for rows in order of time. False in full (C167_out_of_order_false)."
  },
  {
   "property": "C168",
   "status": "partial",
   "theorems": [
    "Oplab.Props.C168_sections_false",
    "Oplab.Props.C168_filter_off_false",
    "Oplab.Props.C168_stops_iff_partial",
    "Oplab.Props.C168_absent_off"
   ],
   "note": "Exact conditions proved. False in full: without usbl_filter or plot_output the run stops, and with interactive plots also without particle_filter or with the USBL filter off (C168_sections_false, C168_filter_off_false)."
  },
  {
   "property": "C169",
   "status": "partial",
   "theorems": [
    "Oplab.Props.C169_missing_false",
    "Oplab.Props.C169_default_partial",
    "Oplab.Props.C169_given"
   ],
   "note": "Proved for given models and without a section std. False in full: a section without one of the quantities stops the run (C169_missing_false)."
  },
  {
   "property": "C170",
   "status": "proved",
   "theorems": [
    "Oplab.Props.C170_accepted_iff",
    "Oplab.Props.C170_entries"
   ],
   "note": "Proved in full."
  },
  {
   "property": "C171",
   "status": "proved",
   "theorems": [
    "Oplab.Props.C171_position"
   ],
   "note": "Proved in full."
  },
  {
   "property": "C172",
   "status": "proved",
   "theorems": [
    "Oplab.Props.C172_default_all",
    "Oplab.Props.C172_no_records",
    "Oplab.Props.C172_given"
   ],
   "note": "Proved in full, for records in order of time; no records is an error."
  },
  {
   "property": "C173",
   "status": "proved",
   "theorems": [
    "Oplab.Props.C173_kept",
    "Oplab.Props.C173_folders_distinct"
   ],
   "note": "Proved in full."
  },
  {
   "property": "C174",
   "status": "partial",
   "theorems": [
    "Oplab.Props.C174_single_image_false",
    "Oplab.Props.C174_camera_files_partial",
    "Oplab.Props.C174_not_written",
    "Oplab.Props.C174_distinct_false",
    "Oplab.Props.C174_distinct_partial"
   ],
   "note": "Proved for at least two images and for names that differ. False in full: single images (C174_single_image_false), cameras named dvl (C174_distinct_false)."
  },
  {
   "property": "C175",
   "status": "partial",
   "theorems": [
    "Oplab.Props.C175_two_cameras_false",
    "Oplab.Props.C175_computed_iff_partial",
    "Oplab.Props.C175_covariances",
    "Oplab.Props.C175_variances"
   ],
   "note": "Exact condition and the sums proved. False in full: two cameras (C175_two_cameras_false), EKF off in the settings."
  },
  {
   "property": "C176",
   "status": "partial",
   "theorems": [
    "Oplab.Props.C176_time_partial",
    "Oplab.Props.C176_sixty",
    "Oplab.Props.C176_midnight_false"
   ],
   "note": "Proved for times on the date of the file. False in full: after midnight the times are a day early (C176_midnight_false)."
  },
  {
   "property": "C177",
   "status": "proved",
   "theorems": [
    "Oplab.Props.C177_last_time"
   ],
   "note": "Proved in full."
  },
  {
   "property": "C178",
   "status": "partial",
   "theorems": [
    "Oplab.Props.C178_manual_order_partial",
    "Oplab.Props.C178_time_false",
    "Oplab.Props.C178_time_first_partial",
    "Oplab.Props.C178_values_partial",
    "Oplab.Props.C178_once",
    "Oplab.Props.C178_lost_heading_false"
   ],
   "note": "Exact result proved for the order of lines of the manual and for time lines first; nothing is recorded twice. False in full: in the order of the manual attitudes have the time of the cycle before (C178_time_false), and after a lost heading values of two cycles are combined (C178_lost_heading_false)."
  },
  {
   "property": "C179",
   "status": "partial",
   "theorems": [
    "Oplab.Props.C179_body",
    "Oplab.Props.C179_inertial_partial",
    "Oplab.Props.C179_own_std_false"
   ],
   "note": "Body velocities proved in full; inertial ones proved with the uncertainty sent before them. False in full (C179_own_std_false)."
  },
  {
   "property": "C180",
   "status": "partial",
   "theorems": [
    "Oplab.Props.C180_own_time_false",
    "Oplab.Props.C180_depth_partial"
   ],
   "note": "Proved for readable times. False in full: an unreadable time is replaced by an older one (C180_own_time_false)."
  },
  {
   "property": "C181",
   "status": "partial",
   "theorems": [
    "Oplab.Props.C181_late_false",
    "Oplab.Props.C181_altitude_partial"
   ],
   "note": "Proved for altitudes after the times are known. False in full: before that they are recorded late (C181_late_false)."
  },
  {
   "property": "C182",
   "status": "partial",
   "theorems": [
    "Oplab.Props.C182_depth_false",
    "Oplab.Props.C182_empty_partial",
    "Oplab.Props.C182_rdi_values"
   ],
   "note": "Values of velocity lines proved; other records stop the parser, exactly characterised (C182_depth_false, C182_empty_partial)."
  },
  {
   "property": "C183",
   "status": "proved",
   "theorems": [
    "Oplab.Props.C183_turns",
    "Oplab.Props.C183_exact",
    "Oplab.Props.C183_records",
    "Oplab.Props.C183_scale"
   ],
   "note": "Proved with an error of at most 2^-49 of the size of the vector, and without error unless the nose is vertical."
  },
  {
   "property": "C184",
   "status": "partial",
   "theorems": [
    "Oplab.Props.C184_record_false",
    "Oplab.Props.C184_false",
    "Oplab.Props.C184_level"
   ],
   "note": "False for every such message (C184_record_false): it gives a record; with the zero quaternion the record says level and heading north (C184_level)."
  },
  {
   "property": "C185",
   "status": "partial",
   "theorems": [
    "Oplab.Props.C185_times_partial",
    "Oplab.Props.C185_recent_partial",
    "Oplab.Props.C185_clock_not_set_false",
    "Oplab.Props.C185_old_names_stop",
    "Oplab.Props.C185_old_names_false"
   ],
   "note": "Proved for times from 2000 on. False in full: earlier times, as of a camera without a set clock, give 0 (C185_clock_not_set_false), and names with one time always stop the parser because the ending of the file is read as a part of the fraction (C185_old_names_stop)."
  },
  {
   "property": "C186",
   "status": "partial",
   "theorems": [
    "Oplab.Props.C186_records_partial",
    "Oplab.Props.C186_one_camera_stops",
    "Oplab.Props.C186_one_camera_false",
    "Oplab.Props.C186_folder_false"
   ],
   "note": "Proved for plain paths if the second camera has strobed images or the first has none. False in full: otherwise the parser stops (C186_one_camera_false), and below folders with \"._\" in the name images are not found (C186_folder_false)."
  },
  {
   "property": "C187",
   "status": "partial",
   "theorems": [
    "Oplab.Props.C187_laser_stops",
    "Oplab.Props.C187_false",
    "Oplab.Props.C187_lines_partial"
   ],
   "note": "Proved for dives without laser images. False in full: no dive with a laser image can be converted (C187_laser_stops)."
  },
  {
   "property": "C188",
   "status": "partial",
   "theorems": [
    "Oplab.Props.C188_time",
    "Oplab.Props.C188_rows",
    "Oplab.Props.C188_settings_partial",
    "Oplab.Props.C188_offset_false",
    "Oplab.Props.C188_folder_false"
   ],
   "note": "Times proved to the millisecond for every date and log. False in full: folder and offset are those of the velocity for every sensor (C188_folder_false, C188_offset_false); proved if they agree."
  },
  {
   "property": "C189",
   "status": "partial",
   "theorems": [
    "Oplab.Props.C189_velocities",
    "Oplab.Props.C189_formats_partial",
    "Oplab.Props.C189_rotation_false",
    "Oplab.Props.C189_missing_false"
   ],
   "note": "Oplab format proved in full. The acfr format has the same velocities for a DVL in line with the vehicle (C189_formats_partial). False in full: it is not turned by mounting angles (C189_rotation_false), and a missing field stops it (C189_missing_false)."
  },
  {
   "property": "C190",
   "status": "partial",
   "theorems": [
    "Oplab.Props.C190_orientations",
    "Oplab.Props.C190_mounting",
    "Oplab.Props.C190_orientation_formats",
    "Oplab.Props.C190_altitudes",
    "Oplab.Props.C190_depth_false",
    "Oplab.Props.C190_depths",
    "Oplab.Props.C190_altitude_acfr_empty"
   ],
   "note": "Orientations proved in full for both formats, altitudes for the oplab format. False in full: the acfr format has depths that were left out (C190_depth_false) and no altitudes (C190_altitude_acfr_empty)."
  },
  {
   "property": "C191",
   "status": "partial",
   "theorems": [
    "Oplab.Props.C191_fixes_partial",
    "Oplab.Props.C191_midnight_false",
    "Oplab.Props.C191_fraction_false",
    "Oplab.Props.C191_text_label_false"
   ],
   "note": "Proved for all logs whose computer has the date of the telegram and whose fractions have three digits (C191_fixes_partial). False in full: a telegram noted after midnight is a day late (C191_midnight_false), '.5' is 5 ms (C191_fraction_false), a label given as text never matches (C191_text_label_false)."
  },
  {
   "property": "C192",
   "status": "partial",
   "theorems": [
    "Oplab.Props.C192_records_partial",
    "Oplab.Props.C192_std_false",
    "Oplab.Props.C192_blank_line_false"
   ],
   "note": "Times and heights proved for all tables (C192_records_partial). False in full: the deviation is height times offset, negative below the datum (C192_std_false); a blank line makes the parser fail (C192_blank_line_false)."
  },
  {
   "property": "C193",
   "status": "partial",
   "theorems": [
    "Oplab.Props.C193_fixes_partial",
    "Oplab.Props.C193_south_false",
    "Oplab.Props.C193_blank_line_false",
    "Oplab.Props.C193_numeric_label_false",
    "Oplab.Props.C193_acfr"
   ],
   "note": "Proved for all dumps with northern and eastern positions or whole degrees (C193_fixes_partial). False in full: minutes have the wrong sign in the south and west (C193_south_false), a blank line makes the parser fail (C193_blank_line_false), a label that YAML reads as a number never matches (C193_numeric_label_false)."
  },
  {
   "property": "C194",
   "status": "partial",
   "theorems": [
    "Oplab.Props.C194_records_partial",
    "Oplab.Props.C194_nan_time_false",
    "Oplab.Props.C194_columns_partial",
    "Oplab.Props.C194_table",
    "Oplab.Props.C194_columns_false",
    "Oplab.Props.C194_autosub",
    "Oplab.Props.C194_std_false",
    "Oplab.Props.C194_std_partial",
    "Oplab.Props.C194_mounting_false"
   ],
   "note": "Records of all rows and columns proved for tables without NaN times and with one time column (C194_records_partial, C194_columns_partial, C194_autosub, C194_std_partial). False in full: a NaN time changes its neighbours (C194_nan_time_false), two time columns raise KeyError (C194_columns_false), deviations can be negative (C194_std_false), the mounting angle is ignored (C194_mounting_false)."
  },
  {
   "property": "C195",
   "status": "partial",
   "theorems": [
    "Oplab.Props.C195_orientations_partial",
    "Oplab.Props.C195_heading",
    "Oplab.Props.C195_stale_false",
    "Oplab.Props.C195_no_std",
    "Oplab.Props.C195_label_false",
    "Oplab.Props.C195_label_partial",
    "Oplab.Props.C195_ntnu_partial",
    "Oplab.Props.C195_midnight_false",
    "Oplab.Props.C195_no_lock_false",
    "Oplab.Props.C195_other_category"
   ],
   "note": "Proved for complete telegrams, numeric labels and logs within a day (C195_orientations_partial, C195_label_partial, C195_ntnu_partial, C195_no_std, C195_other_category). False in full: an incomplete telegram repeats the previous orientation (C195_stale_false), a text label finds no positions (C195_label_false), rows after midnight keep the date of the file (C195_midnight_false), a velocity without bottom lock is recorded (C195_no_lock_false)."
  },
  {
   "property": "C196",
   "status": "partial",
   "theorems": [
    "Oplab.Props.C196_right_iff_partial",
    "Oplab.Props.C196_clocks_false",
    "Oplab.Props.C196_agree_iff",
    "Oplab.Props.C196_differences",
    "Oplab.Props.C196_rules"
   ],
   "note": "For each format the exact condition under which its times are right (C196_right_iff_partial); all formats agree exactly if zone, offset and computer zone are zero (C196_agree_iff); differences are always kept (C196_differences). The rules are those of the modelled parsers where these exist (C196_rules); for AE2000, RDI, rosbag and payload they are transcribed. False in full (C196_clocks_false)."
  },
  {
   "property": "C197",
   "status": "partial",
   "theorems": [
    "Oplab.Props.C197_fit_iff",
    "Oplab.Props.C197_line_partial",
    "Oplab.Props.C197_at_polls",
    "Oplab.Props.C197_order_partial",
    "Oplab.Props.C197_usable_false",
    "Oplab.Props.C197_order_false",
    "Oplab.Props.C197_polls",
    "Oplab.Props.C197_no_overwrite",
    "Oplab.Props.C197_files_partial",
    "Oplab.Props.C197_files_false"
   ],
   "note": "Proved: the lines are read as written (C197_polls), when a correction exists (C197_fit_iff), interpolation with two or more polls (C197_line_partial, C197_at_polls), order for increasing BioCam times (C197_order_partial), nothing is overwritten (C197_no_overwrite), names for one file per option (C197_files_partial). False in full: one poll or two at the same vehicle time fail (C197_usable_false), order (C197_order_false), several files after one option (C197_files_false)."
  },
  {
   "property": "C198",
   "status": "partial",
   "theorems": [
    "Oplab.Props.C198_values",
    "Oplab.Props.C198_accepted",
    "Oplab.Props.C198_setup_partial",
    "Oplab.Props.C198_method_false",
    "Oplab.Props.C198_manual_partial",
    "Oplab.Props.C198_monochrome_false",
    "Oplab.Props.C198_folder_false",
    "Oplab.Props.C198_limits_false",
    "Oplab.Props.C198_empty_sections"
   ],
   "note": "Proved: values and defaults (C198_values), only known methods and metrics (C198_accepted), set-up of a camera when the section of the attenuation is there (C198_setup_partial), folder names for three channels (C198_manual_partial). False in full: manual balance without the attenuation section fails although accepted (C198_method_false), balance of one channel has no folder (C198_monochrome_false), balances with the same diagonal share a folder (C198_folder_false), limits that nothing meets are accepted (C198_limits_false); empty sections stop the run (C198_empty_sections)."
  },
  {
   "property": "C199",
   "status": "partial",
   "theorems": [
    "Oplab.Props.C199_never_completes",
    "Oplab.Props.C199_merge_false",
    "Oplab.Props.C199_merged_partial",
    "Oplab.Props.C199_left_unsorted",
    "Oplab.Props.C199_needs_camera",
    "Oplab.Props.C199_date",
    "Oplab.Props.C199_name",
    "Oplab.Props.C199_name_false"
   ],
   "note": "Proved: dates are read from folder names (C199_date), the name of the merged folder for any order (C199_name), the merge when the processed folder of the first dive has the settings (C199_merged_partial). False in full: nothing writes these settings, so no first merge completes (C199_never_completes, C199_merge_false) and the file left behind is unsorted (C199_left_unsorted); dives between the first and the last do not count in the name (C199_name_false); a dive without camera.yaml is not parsed (C199_needs_camera)."
  },
  {
   "property": "C200",
   "status": "partial",
   "theorems": [
    "Oplab.Props.C200_records_partial",
    "Oplab.Props.C200_needs_time",
    "Oplab.Props.C200_column_false",
    "Oplab.Props.C200_time_iff",
    "Oplab.Props.C200_time_false",
    "Oplab.Props.C200_values_false",
    "Oplab.Props.C200_line",
    "Oplab.Props.C200_payloads_partial",
    "Oplab.Props.C200_format_false",
    "Oplab.Props.C200_types"
   ],
   "note": "Proved: records of all rows and columns for files without a column epoch_timestamp and integers that are converted exactly (C200_records_partial), written rows read back by name (C200_line), all payloads in the known format (C200_payloads_partial), a file without times is refused (C200_needs_time). False in full: a column epoch_timestamp is dropped (C200_column_false), the time that is written lacks the offset (C200_time_iff, C200_time_false), integers beyond 53 bits are rounded (C200_values_false), another format or a payload missing in mission.yaml ends the run (C200_format_false)."
  },
  {
   "property": "C201",
   "status": "partial",
   "theorems": [
    "Oplab.Props.C201_colour_partial",
    "Oplab.Props.C201_rgb_false",
    "Oplab.Props.C201_bayer",
    "Oplab.Props.C201_distance_iff",
    "Oplab.Props.C201_balance_partial",
    "Oplab.Props.C201_balance_rgb_false",
    "Oplab.Props.C201_balance_bayer",
    "Oplab.Props.C201_balance_grey_false",
    "Oplab.Props.C201_colours_false",
    "Oplab.Props.C201_undistort_iff",
    "Oplab.Props.C201_undistort_false",
    "Oplab.Props.C201_run"
   ],
   "note": "Proved: every value of the output for types grayscale, bgr and Bayer (C201_colour_partial, C201_bayer, C201_balance_partial), need of a distance (C201_distance_iff), one output for each image (C201_run). False in full: images of type rgb come out with red and blue exchanged (C201_rgb_false, C201_balance_rgb_false, C201_colours_false); the calibration is looked for under a name that auv_cal never uses, so that the request is ignored (C201_undistort_iff, C201_undistort_false)."
  },
  {
   "property": "C202",
   "status": "proved",
   "theorems": [
    "Oplab.Props.C202_update",
    "Oplab.Props.C202_distance",
    "Oplab.Props.C202_single",
    "Oplab.Props.C202_depth"
   ],
   "note": "Full, for measurements with independent errors, which all measurements built by the filter are (C29_built_diagonal), and with the variances that the filter uses (size, not below 1e-9)."
  },
  {
   "property": "C203",
   "status": "partial",
   "theorems": [
    "Oplab.Props.C203_folder",
    "Oplab.Props.C203_columns",
    "Oplab.Props.C203_written",
    "Oplab.Props.C203_all",
    "Oplab.Props.C203_once_partial",
    "Oplab.Props.C203_once_false",
    "Oplab.Props.C203_squidle",
    "Oplab.Props.C203_thumbnails",
    "Oplab.Props.C203_degrees"
   ],
   "note": "One row for each image holds if the images in the navigation file have different names without folders; images of the same name in two folders both get a row (C203_once_false)."
  },
  {
   "property": "C204",
   "status": "partial",
   "theorems": [
    "Oplab.Props.C204_results",
    "Oplab.Props.C204_counts",
    "Oplab.Props.C204_distance",
    "Oplab.Props.C204_surface",
    "Oplab.Props.C204_bottom_partial",
    "Oplab.Props.C204_bottom_false",
    "Oplab.Props.C204_time"
   ],
   "note": "Counts, average, times, distance along the counted images and swept surface in full. The distance is that at the bottom if all images are below the threshold; otherwise the ways between two stays at the bottom are counted as well (C204_bottom_false)."
  },
  {
   "property": "C205",
   "status": "partial",
   "theorems": [
    "Oplab.Props.C205_loaded",
    "Oplab.Props.C205_own_partial",
    "Oplab.Props.C205_range",
    "Oplab.Props.C205_loader",
    "Oplab.Props.C205_own_false",
    "Oplab.Props.C205_late"
   ],
   "note": "Holds for images recorded within half a second of their stamp and at least 5 ms from others of the topic; of closer frames the first is loaded (C205_own_false), later recorded ones are not found (C205_late). The offset is a parameter; see C64 for its computation."
  },
  {
   "property": "C206",
   "status": "partial",
   "theorems": [
    "Oplab.Props.C206_written",
    "Oplab.Props.C206_propagation",
    "Oplab.Props.C206_covariances",
    "Oplab.Props.C206_twice",
    "Oplab.Props.C206_exact_partial",
    "Oplab.Props.C206_understated_false",
    "Oplab.Props.C206_two_false",
    "Oplab.Props.C206_start"
   ],
   "note": "The written covariances are sums, which is right for uncorrelated errors (exact condition proved) and at most a factor of two too small as variance; opposite errors are understated (C206_understated_false). With two cameras the run always fails (C206_two_false)."
  },
  {
   "property": "C207",
   "status": "partial",
   "theorems": [
    "Oplab.Props.C207_camera",
    "Oplab.Props.C207_dvl",
    "Oplab.Props.C207_dead_reckoning",
    "Oplab.Props.C207_seafloor_partial",
    "Oplab.Props.C207_seafloor_false",
    "Oplab.Props.C207_latlon_partial",
    "Oplab.Props.C207_latlon_false",
    "Oplab.Props.C207_particles_partial",
    "Oplab.Props.C207_particles_false",
    "Oplab.Props.C207_particle",
    "Oplab.Props.C207_state",
    "Oplab.Props.C207_std"
   ],
   "note": "Positions are proved for the filter and dead reckoning. The filter shifts depth but not altitude from the DVL to the origin, so the seafloor is right exactly if both are at the same depth (iff proved, C207_seafloor_false). Latitude and longitude of a camera are those of the vehicle's origin (C207_latlon_false). The particle filter shifts no depth (C207_particles_false)."
  },
  {
   "property": "C208",
   "status": "partial",
   "theorems": [
    "Oplab.Props.C208_valid",
    "Oplab.Props.C208_filled",
    "Oplab.Props.C208_first",
    "Oplab.Props.C208_single_partial",
    "Oplab.Props.C208_between_false",
    "Oplab.Props.C208_missing_false",
    "Oplab.Props.C208_speed",
    "Oplab.Props.C208_nothing",
    "Oplab.Props.C208_right_partial",
    "Oplab.Props.C208_right_false",
    "Oplab.Props.C208_outputs"
   ],
   "note": "The value that replaces a missing one is characterised for every position (C208_filled, C208_first, C208_valid). It is the interpolation for single missing values; the first of several is taken towards zero (C208_between_false), a missing last one stays (C208_missing_false), a missing first one is taken from the line through the last and the second record. The speed filter keeps exactly the right records if the first one is right; a wrong first record removes all right ones (C208_right_false)."
  },
  {
   "property": "C209",
   "status": "partial",
   "theorems": [
    "Oplab.Props.C209_pairs_partial",
    "Oplab.Props.C209_absolute",
    "Oplab.Props.C209_pairs_false",
    "Oplab.Props.C209_dirs"
   ],
   "note": "The parser ignores the dive's folder: relative paths are looked up from the working directory (C209_pairs_false). Proved for a start in the raw folder of the dive, and for paths from the root anywhere (C209_absolute)."
  },
  {
   "property": "C210",
   "status": "partial",
   "theorems": [
    "Oplab.Props.C210_rotation",
    "Oplab.Props.C210_distance",
    "Oplab.Props.C210_zero_partial",
    "Oplab.Props.C210_axis",
    "Oplab.Props.C210_distance_false",
    "Oplab.Props.C210_ray_partial",
    "Oplab.Props.C210_parallel",
    "Oplab.Props.C210_ray_false",
    "Oplab.Props.C210_axis_unit",
    "Oplab.Props.C210_plane_partial",
    "Oplab.Props.C210_plane_false"
   ],
   "note": "The rotation is Rodrigues' (C210_rotation). The residual is the sine of the angle to the cone, not the distance, and on the axis it uses the cosine in place of the sine (C210_distance, C210_axis, C210_distance_false); off the axis it is zero on the cone only (C210_zero_partial). Intersections are exact unless the ray is parallel to the cone (C210_ray_partial, C210_parallel, C210_ray_false). Drawing a plane fails for every image with a pixel (C210_plane_partial, C210_plane_false). The least squares optimiser is not modelled."
  },
  {
   "property": "C211",
   "status": "partial",
   "theorems": [
    "Oplab.Props.C211_depth",
    "Oplab.Props.C211_usbl_partial",
    "Oplab.Props.C211_dvl_partial",
    "Oplab.Props.C211_orientation_partial",
    "Oplab.Props.C211_own_false",
    "Oplab.Props.C211_offset_partial",
    "Oplab.Props.C211_offset_false",
    "Oplab.Props.C211_attitude"
   ],
   "note": "The first component's standard deviation decides for all (C211_own_false); a negative angle or depth reduces the standard deviation of the settings, to 0 and beyond (C211_offset_false). Proved for sensors that give all standard deviations or none, and the offset for DVL, USBL and readings that are not negative."
  },
  {
   "property": "C212",
   "status": "partial",
   "theorems": [
    "Oplab.Props.C212_ends",
    "Oplab.Props.C212_possible",
    "Oplab.Props.C212_min_dist",
    "Oplab.Props.C212_needs_four",
    "Oplab.Props.C212_three_endless",
    "Oplab.Props.C212_search_false",
    "Oplab.Props.C212_fit",
    "Oplab.Props.C212_few"
   ],
   "note": "The search ends exactly when enough good triples have been drawn (C212_ends), so it can end exactly for clouds that have one (C212_possible). The smallest distance is twice the standard deviation of the points (C212_min_dist), so no cloud of three points has one (C212_needs_four, C212_three_endless: endless), and not every cloud of four (C212_search_false: a square). The least squares fit is a parameter; clouds whose points coincide seen along the first axis (nan) are excluded."
  },
  {
   "property": "C213",
   "status": "partial",
   "theorems": [
    "Oplab.Props.C213_velocity",
    "Oplab.Props.C213_inertial",
    "Oplab.Props.C213_orientation",
    "Oplab.Props.C213_scalars",
    "Oplab.Props.C213_usbl",
    "Oplab.Props.C213_sidescan_header",
    "Oplab.Props.C213_sidescan_partial",
    "Oplab.Props.C213_longitude_false",
    "Oplab.Props.C213_sidescan_file",
    "Oplab.Props.C213_sidescan_stops",
    "Oplab.Props.C213_compass",
    "Oplab.Props.C213_depth_line",
    "Oplab.Props.C213_rdi",
    "Oplab.Props.C213_range",
    "Oplab.Props.C213_bearing_partial",
    "Oplab.Props.C213_bearing_false"
   ],
   "note": "Tables: proved in full. Sidescan: a pose with a longitude but no latitude loses it (C213_longitude_false). Bearing: it is seen from the origin of the mission (C213_bearing_partial), not from the ship (C213_bearing_false). Number formatting is a parameter."
  },
  {
   "property": "C214",
   "status": "partial",
   "theorems": [
    "Oplab.Props.C214_cal",
    "Oplab.Props.C214_nav_partial",
    "Oplab.Props.C214_nav_ignores",
    "Oplab.Props.C214_bare",
    "Oplab.Props.C214_nav_false",
    "Oplab.Props.C214_correct_partial",
    "Oplab.Props.C214_correct_single",
    "Oplab.Props.C214_suffix",
    "Oplab.Props.C214_correct_false"
   ],
   "note": "auv_cal: proved (C214_cal). auv_nav and correct_images ignore the arguments they are called with from another module (C214_nav_ignores, C214_nav_false, C214_correct_false); on the command line they run what is asked (C214_nav_partial, C214_correct_partial), except that a single word is taken for the path of a dive by correct_images (C214_correct_single). argparse is a parameter."
  },
  {
   "property": "C215",
   "status": "partial",
   "theorems": [
    "Oplab.Props.C215_written",
    "Oplab.Props.C215_all_partial",
    "Oplab.Props.C215_stops",
    "Oplab.Props.C215_unknown_false",
    "Oplab.Props.C215_ending_false"
   ],
   "note": "Proved for cameras that are in camera.yaml and images that end with .jpg, .png or .tif (C215_all_partial); other cameras are left out without an error (C215_unknown_false), and so are other endings (C215_ending_false)."
  },
  {
   "property": "C216",
   "status": "proved",
   "theorems": [
    "Oplab.Props.C216_filter",
    "Oplab.Props.C216_smoother"
   ],
   "note": "Composition of the models of C34, C202 and C211: start, prediction, all four kinds of measurement, gate, innovations, wrap of the angles, loop, smoother. Measured angles may differ by whole turns. Arithmetic is exact."
  },
  {
   "property": "C217",
   "status": "partial",
   "theorems": [
    "Oplab.Props.C217_track_partial",
    "Oplab.Props.C217_no_fixes_partial",
    "Oplab.Props.C217_payload_partial",
    "Oplab.Props.C217_transponder_at_origin",
    "Oplab.Props.C217_succeeds",
    "Oplab.Props.C217_usbl_false"
   ],
   "note": "Composition of the models of synchronisation (C79), angular rates (C08), lever arm (C07), dead reckoning (C09), shift onto the fixes (C82) and sensor interpolation (C06). True without condition for attitude, velocity, depth, altitude and for the horizontal position but for one constant shift; the shift is the vector from the origin to the transponder (C217_track_partial, C217_payload_partial), because the fixes of the transponder are compared with the origin of the vehicle: C217_usbl_false. Exact when the transponder is at the origin (C217_transponder_at_origin)."
  },
  {
   "property": "C218",
   "status": "partial",
   "theorems": [
    "Oplab.Props.C218_level_partial",
    "Oplab.Props.C218_banked_false"
   ],
   "note": "False: the rates of roll, pitch and yaw are used as rates about the own axes (C218_banked_false). In a steady turn they are right exactly if the vehicle does not turn or is level (C218_level_partial, an equivalence)."
  },
  {
   "property": "C219",
   "status": "partial",
   "theorems": [
    "Oplab.Props.C219_window_partial",
    "Oplab.Props.C219_all_partial",
    "Oplab.Props.C219_body_order_false",
    "Oplab.Props.C219_first_invalid",
    "Oplab.Props.C219_later_invalid",
    "Oplab.Props.C219_invalid_false",
    "Oplab.Props.C219_interrupted_false",
    "Oplab.Props.C219_origin"
   ],
   "note": "Composition of compiling, sorting, choosing the window and loading. Proved for valid measurements whose time stamps have the same number of digits before the point (C13): C219_all_partial, C219_window_partial. False: body velocities are in the order of the vehicle's clock but carry the DVL's (C219_body_order_false; they are out of order by less than two seconds); a None among the results drops the whole sensor if it is first and stops the parse otherwise (C219_first_invalid, C219_later_invalid, C219_invalid_false); if parse is stopped between writing and sorting, processing can silently lose everything (C219_interrupted_false)."
  },
  {
   "property": "C220",
   "status": "partial",
   "theorems": [
    "Oplab.Props.C220_cloud",
    "Oplab.Props.C220_all_points",
    "Oplab.Props.C220_found_partial",
    "Oplab.Props.C220_reported",
    "Oplab.Props.C220_three_points_false"
   ],
   "note": "Composition of pairing, triangulation, removal of the rectification, change of axes, stratified sampling, fit and search for triples. Proved whenever a report is written and the optimiser finds coefficients with zero residuals if there are any: C220_cloud, C220_all_points, C220_found_partial; C220_reported says when there is a report. That the double division by the length of the normal (C59) does no harm here is part of the proof. Missing: the optimiser itself; and the full claim is false because with three points the search for triples never ends (C220_three_points_false)."
  },
  {
   "property": "C221",
   "status": "partial",
   "theorems": [
    "Oplab.Props.C221_supported",
    "Oplab.Props.C221_once",
    "Oplab.Props.C221_only_configured",
    "Oplab.Props.C221_own_partial",
    "Oplab.Props.C221_alr2_false",
    "Oplab.Props.C221_own_false"
   ],
   "note": "Proved: C221_supported, C221_once, C221_only_configured. The files: C221_own_partial under the assumption that logs with several sensors are named alike in all parts that use them (SharedLogs). False in full: parsers of shared logs take the files of the velocity (or orientation, usbl) part for every kind (C221_own_false), and the format alr2 calls its parser with six of its five arguments (C221_alr2_false)."
  },
  {
   "property": "C222",
   "status": "partial",
   "theorems": [
    "Oplab.Props.C222_corrected",
    "Oplab.Props.C222_exact",
    "Oplab.Props.C222_parsed_partial",
    "Oplab.Props.C222_one_pair_false",
    "Oplab.Props.C222_format_false",
    "Oplab.Props.C222_laser_only_false"
   ],
   "note": "Extends C22 from one camera to the whole function with the interleaved counters, and to its caller. Proved: C222_corrected (any regression), C222_exact (a regression that finds lines), C222_parsed_partial (format biocam with a pair as first record). False in full: the format biocam4000_15c uses the same parser but its times are never corrected (C222_format_false), laser images of a dive without pairs stay as they are (C222_laser_only_false), and a dive with one pair fails (C222_one_pair_false)."
  },
  {
   "property": "C223",
   "status": "proved",
   "theorems": [
    "Oplab.Props.C223_mono",
    "Oplab.Props.C223_stereo",
    "Oplab.Props.C223_about",
    "Oplab.Props.C223_intrinsics_once",
    "Oplab.Props.C223_fundamental_false",
    "Oplab.Props.C223_width"
   ],
   "note": "Proved on the text of the files: C223_mono, C223_stereo, C223_intrinsics_once. Six decimals are too few for the fundamental matrix: that of an ordinary pair can be read as zero (C223_fundamental_false). The reader is a model of cv2.FileStorage for files of this form. Finite numbers only; coefficients of the plumb bob model (the only one auv_cal asks for)."
  },
  {
   "property": "C224",
   "status": "proved",
   "theorems": [
    "Oplab.Props.C224_displacement",
    "Oplab.Props.C224_track",
    "Oplab.Props.C224_converges",
    "Oplab.Props.C224_payload"
   ],
   "note": "C224_displacement (without fixes), C224_track (with fixes), C224_converges, C224_payload, for all motions. The DVL is at the origin of the frame: elsewhere the lever arm correction has the wrong sign (C07). The transponder is at the vehicle's origin: its mounting position is not used (C217_usbl_false). Beginning and end of the payload's list: see C06."
  },
  {
   "property": "C225",
   "status": "partial",
   "theorems": [
    "Oplab.Props.C225_numbered_partial",
    "Oplab.Props.C225_view_partial",
    "Oplab.Props.C225_stereo_partial",
    "Oplab.Props.C225_standing_false",
    "Oplab.Props.C225_leaning_false"
   ],
   "note": "C225_numbered_partial, C225_view_partial and C225_stereo_partial for boards seen upright. C225_standing_false: a square board standing on a corner is numbered depending on the detector. C225_leaning_false: two views of a square board turned by about 45 degrees can be numbered from different corners."
  },
  {
   "property": "C226",
   "status": "partial",
   "theorems": [
    "Oplab.Props.C226_parameters_partial",
    "Oplab.Props.C226_corrected_partial",
    "Oplab.Props.C226_same_floor_partial",
    "Oplab.Props.C226_uniform_partial",
    "Oplab.Props.C226_trimmed_false",
    "Oplab.Props.C226_bright_false"
   ],
   "note": "C226_parameters_partial, C226_corrected_partial and C226_same_floor_partial for averages of bins (`mean`), for altitudes in steps of a bin, floors that are the same on average at every altitude, an optimiser that finds an exact fit if there is one, and values not above 0.95; C226_uniform_partial also for `median` and `ransac_mean` over even ground. C226_trimmed_false: with `mean_trimmed` all parameters are 1, 0, 0, nothing is corrected. C226_bright_false: where the light at the mean altitude is above 0.95, the corrected image is white. Missing: altitudes that vary within a bin (the fit is then not exact) and floors that differ between altitudes."
  },
  {
   "property": "C227",
   "status": "proved",
   "theorems": [
    "Oplab.Props.C227_moves",
    "Oplab.Props.C227_runs",
    "Oplab.Props.C227_start",
    "Oplab.Props.C227_straight"
   ],
   "note": "Proved: C227_moves for every run; C227_runs for settings with one factor and offset per quantity, at least two entries and one fix, in order, fixes after the first entry and at other times than entries; C227_start and C227_straight without noise."
  },
  {
   "property": "C228",
   "status": "partial",
   "theorems": [
    "Oplab.Props.C228_next_partial",
    "Oplab.Props.C228_steady_partial",
    "Oplab.Props.C228_attitude_false"
   ],
   "note": "False (C228_attitude_false): the state vector is stored in the trajectory without a copy and the next step writes its measurements into it, so that every point but the last reports the attitude, velocity and depth belonging to the next point (C228_next_partial: exactly so, for all runs without noise; the altitude is that of the first entry). C228_steady_partial: right if attitude and velocity do not change. The depth of the last point is not covered (C70_depth_false)."
  },
  {
   "property": "C229",
   "status": "partial",
   "theorems": [
    "Oplab.Props.C229_spread_partial",
    "Oplab.Props.C229_degrees_false",
    "Oplab.Props.C229_backwards_false",
    "Oplab.Props.C229_axes_false"
   ],
   "note": "C229_spread_partial: as configured for depth and velocities that are not negative; exact rule for angles. False: the offset of the angles, in degrees, is used in radians (C229_degrees_false); for negative values factor and offset cancel (C229_backwards_false); settings per axis, which the movement model understands, make the run fail with KeyError because the uniform ones are printed (C229_axes_false)."
  },
  {
   "property": "C230",
   "status": "partial",
   "theorems": [
    "Oplab.Props.C230_lines",
    "Oplab.Props.C230_steady_partial",
    "Oplab.Props.C230_command_fails",
    "Oplab.Props.C230_command_false"
   ],
   "note": "False for the command (C230_command_false): --reference-lat and --reference-lon have no type, so the parser gets texts and the geodesic computation fails for the first image, whatever the log (C230_command_fails). Proved for the parser called with numbers: C230_lines for all logs, C230_steady_partial (log texts to poses) for steadily moving vehicles with altitudes and depths that are not zero and a reference without zero. Behaviour between records of other vehicles: C145."
  },
  {
   "property": "C231",
   "status": "partial",
   "theorems": [
    "Oplab.Props.C231_read_back_partial",
    "Oplab.Props.C231_crash",
    "Oplab.Props.C231_other_files",
    "Oplab.Props.C231_single_false",
    "Oplab.Props.C231_folder_false",
    "Oplab.Props.C231_folder_partial"
   ],
   "note": "False for a single fix (C231_single_false: nothing is written) and for schedules in which a writer of raw measurements creates the folder between the look and the mkdir of process (C231_folder_false). Proved for two or more fixes (C231_read_back_partial), for all crash points (C231_crash), and C231_folder_partial tells exactly which schedules fail."
  },
  {
   "property": "C232",
   "status": "partial",
   "theorems": [
    "Oplab.Props.C232_velocity",
    "Oplab.Props.C232_altitude",
    "Oplab.Props.C232_orientation",
    "Oplab.Props.C232_orientation_none",
    "Oplab.Props.C232_velocity_partial",
    "Oplab.Props.C232_mount_false",
    "Oplab.Props.C232_uncertainty_false",
    "Oplab.Props.C232_attitude_false",
    "Oplab.Props.C232_acfr_fails"
   ],
   "note": "False in four ways: the angle of the dvl is used as radians (C232_mount_false), the signed error velocity becomes the uncertainty (C232_uncertainty_false), attitudes are in radians (C232_attitude_false), and the format acfr fails at the first record (C232_acfr_fails). Proved exactly for all logs: C232_velocity, C232_altitude, C232_orientation, C232_orientation_none; C232_velocity_partial is the property for dvls in line with the vehicle. That the last ensemble is lost and attitudes get the time of the ensemble before is C16."
  },
  {
   "property": "C233",
   "status": "partial",
   "theorems": [
    "Oplab.Props.C233_run_partial",
    "Oplab.Props.C233_configured_not_read",
    "Oplab.Props.C233_configured_false",
    "Oplab.Props.C233_invalid_false",
    "Oplab.Props.C233_no_ship",
    "Oplab.Props.C233_missing"
   ],
   "note": "False in three ways: the configured file itself is only tested for existence, never read (C233_configured_not_read, C233_configured_false), positions flagged as invalid become fixes (C233_invalid_false), and without a ship position or heading the parser fails instead of giving the positions (C233_no_ship). For a missing file it returns None (C233_missing), of which parse.py then takes the length. C233_run_partial is the property for the files that continue the configured one. Which ship position goes with a fix is C157, the other values of a fix are C158, job lines C156. Special characters of glob in the file name are not modelled."
  },
  {
   "property": "C234",
   "status": "partial",
   "theorems": [
    "Oplab.Props.C234_fixes_partial",
    "Oplab.Props.C234_uncertainties",
    "Oplab.Props.C234_evologics",
    "Oplab.Props.C234_linear_unreadable",
    "Oplab.Props.C234_linear_less",
    "Oplab.Props.C234_status_false",
    "Oplab.Props.C234_uncertainty_false"
   ],
   "note": "C234_fixes_partial: positions are those of the messages, in order. Uncertainties are those of the same message for poses and receivers (C234_uncertainties). False: fixes of receivers with status 1 or 2 are dropped (C234_status_false); records of Evologics modems have no uncertainty (C234_evologics, C234_uncertainty_false); records of poses in metres and of modems cannot be read with the model \"linear\" (C234_linear_unreadable), and the others then have the offset less the factor as uncertainty (C234_linear_less), because their distance to the ship is -1. Messages after one of an unknown type are lost, and nothing is recorded in the format acfr (C147)."
  },
  {
   "property": "C235",
   "status": "partial",
   "theorems": [
    "Oplab.Props.C235_log",
    "Oplab.Props.C235_run_partial",
    "Oplab.Props.C235_pair",
    "Oplab.Props.C235_plain_log",
    "Oplab.Props.C235_unreachable_false"
   ],
   "note": "C235_run_partial: exactly when the files are written, and all lines of all three files; C235_log and C235_plain_log: which records are used (C162, C208); C235_pair: the two cameras are as far apart as on the vehicle. False: positions that cannot be reached are used, because the call of filter_bad_measurements is a comment in convert.py (C235_unreachable_false); nothing is written without laser images (C165_no_laser_false) and headings are interpolated the wrong way round across north (C164_heading_false), both restated by C235_run_partial. Not covered by C235_run_partial: logs in which all records have the same time, values that are not numbers, and the texts of the lines."
  },
  {
   "property": "C236",
   "status": "partial",
   "theorems": [
    "Oplab.Props.C236_acfr_time",
    "Oplab.Props.C236_acfr_partial",
    "Oplab.Props.C236_single",
    "Oplab.Props.C236_history_partial",
    "Oplab.Props.C236_again",
    "Oplab.Props.C236_history_false",
    "Oplab.Props.C236_unreadable",
    "Oplab.Props.C236_ntnu_partial",
    "Oplab.Props.C236_ntnu_left_only",
    "Oplab.Props.C236_ntnu_tolerance_false",
    "Oplab.Props.C236_acfr_format"
   ],
   "note": "C236_acfr_time: the time in every name; C236_acfr_partial and C236_ntnu_partial: the first dive of a process, from the listing to the records; C236_single: one camera; C236_unreadable: one name that cannot be read; C236_acfr_format: the lines of the acfr format; C236_again: parsing the same dive again, any number of times, changes nothing. False: a later dive gets the times of earlier ones, because the lists of times belong to the module and are never emptied (C236_history_false; C236_history_partial says exactly which times it gets); NTNU images 6 ms apart are not paired because four decimals are read as milliseconds (C236_ntnu_tolerance_false), and a dive with left images only is not parsed (C236_ntnu_left_only). Not covered: the rounding of floats, and histories in which a dive failed half way."
  },
  {
   "property": "C237",
   "status": "partial",
   "theorems": [
    "Oplab.Props.C237_corrected_partial",
    "Oplab.Props.C237_no_tide",
    "Oplab.Props.C237_processed_partial",
    "Oplab.Props.C237_empty_tide_false",
    "Oplab.Props.C237_order_false"
   ],
   "note": "C237_corrected_partial: the whole file, for results in order of time and tide records that are not empty; C237_processed_partial: what processing reads from it; C237_no_tide. False: a tide file without samples ends the parsing of a dive with depths with an IndexError (C237_empty_tide_false); a depth that comes after a later one is corrected by a height extrapolated from a later interval (C237_order_false). Not covered: the last interval of the tide record, which is never used (C19), and BioCam clock correction in the same run (C222)."
  },
  {
   "property": "C238",
   "status": "partial",
   "theorems": [
    "Oplab.Props.C238_image",
    "Oplab.Props.C238_rejected",
    "Oplab.Props.C238_bag",
    "Oplab.Props.C238_bag_false",
    "Oplab.Props.C238_raw_false",
    "Oplab.Props.C238_dives",
    "Oplab.Props.C238_topic",
    "Oplab.Props.C238_topic_false"
   ],
   "note": "C238_image, C238_bag, C238_rejected: one dive, for paths without wildcard; C238_dives and C238_topic: all sequences of dives. False: files with the ending raw always count as 1280 by 1024 pixels (C238_raw_false); a bag whose first message cannot be decoded is skipped, even if others can (C238_bag_false); all dives have the size of the first image of the first dive (C238_dives), and a dive without a topic in its mission has the topic of an earlier one (C238_topic_false). Not covered: missing ROS packages; errors of imageio are one error here."
  },
  {
   "property": "C239",
   "status": "partial",
   "theorems": [
    "Oplab.Props.C239_all_partial",
    "Oplab.Props.C239_window_partial",
    "Oplab.Props.C239_origins",
    "Oplab.Props.C239_names",
    "Oplab.Props.C239_laser",
    "Oplab.Props.C239_laser_false"
   ],
   "note": "C239_all_partial, C239_window_partial: from the measurements that the parsers return for each dive, over the sorted files, the merge and the sorted merged file to the lists that are processed; C239_origins; C239_names. C239_laser: dives of which one has a laser image of the BioCam are never merged, whatever else was parsed, hence C239_laser_false. That the command itself ends with an error after the file was written is C199."
  },
  {
   "property": "C240",
   "status": "partial",
   "theorems": [
    "Oplab.Props.C240_lines_partial",
    "Oplab.Props.C240_mono_false",
    "Oplab.Props.C240_stops_false"
   ],
   "note": "C240_lines_partial: from the measurements that the parsers return over the sorted file to the text of the lines. C240_mono_false: dives with one camera get a second line for each image, of an image without name and time. C240_stops_false: a valid fix without depth ends the export with a TypeError, with only the lines before it written. Missing: measurements that lack a value that the file needs; decimal texts of numbers are a parameter."
  },
  {
   "property": "C241",
   "status": "partial",
   "theorems": [
    "Oplab.Props.C241_saved_partial",
    "Oplab.Props.C241_collected",
    "Oplab.Props.C241_used",
    "Oplab.Props.C241_skip_partial",
    "Oplab.Props.C241_skip_false",
    "Oplab.Props.C241_command_partial",
    "Oplab.Props.C241_message_false"
   ],
   "note": "C241_saved_partial, C241_used and C241_command_partial: what is saved and used, and what a run of mono leaves for each camera. C241_collected: it works exactly if the first image can be read and one has a sharp view. C241_skip_partial: unreadable files other than the first make no difference; C241_skip_false: an unreadable first file ends the program. C241_message_false: if the pattern is not found the program ends with an OpenCV error (an image None is written) and the cameras after it are not calibrated. OpenCV is a parameter."
  },
  {
   "property": "C242",
   "status": "partial",
   "theorems": [
    "Oplab.Props.C242_column_partial",
    "Oplab.Props.C242_row_unreadable",
    "Oplab.Props.C242_rewrite_false",
    "Oplab.Props.C242_stereo_unreadable",
    "Oplab.Props.C242_stereo_false"
   ],
   "note": "C242_column_partial: true of a MonoCamera whose distortion coefficients are a column, as a new MonoCamera has them. C242_row_unreadable: a camera that was read from a file has them in a row; only the first is written, and the text cannot be read (C242_rewrite_false). C242_stereo_unreadable: no text of StereoCamera.to_str can be read, because a line break after extrinsics: is missing (C242_stereo_false). The reader is OpenCV's FileStorage as modelled for C223."
  },
  {
   "property": "C243",
   "status": "partial",
   "theorems": [
    "Oplab.Props.C243_keeps",
    "Oplab.Props.C243_run_partial",
    "Oplab.Props.C243_all_or_none_false",
    "Oplab.Props.C243_inputs_false",
    "Oplab.Props.C243_again"
   ],
   "note": "C243_run_partial: what a run writes when all files can be corrected and no input is named as the output of another. C243_keeps: without -f nothing that exists is changed, whatever the error. C243_all_or_none_false: the files before one that cannot be corrected stay written. C243_inputs_false: with -f the output of one input can be another input. C243_again: a corrected file is refused as input. The text of csv files is not modelled."
  },
  {
   "property": "C244",
   "status": "partial",
   "theorems": [
    "Oplab.Props.C244_rows",
    "Oplab.Props.C244_keeps",
    "Oplab.Props.C244_positions_partial",
    "Oplab.Props.C244_after_false",
    "Oplab.Props.C244_first_false",
    "Oplab.Props.C244_emptied_false"
   ],
   "note": "C244_rows: one row for each laser image with its time and file, nothing else. C244_positions_partial: from the text of a stereo pose file with increasing times, positions of images after the second and up to the last pose. C244_after_false: an image after the last pose is extrapolated without limit. C244_first_false: an image between the first two poses is put at the second. C244_keeps: no overwrite without -F. C244_emptied_false: with -F and no pose the file is emptied before the run fails. Attitude (see C05, C25) and the text of rows are not part of it."
  },
  {
   "property": "C245",
   "status": "partial",
   "theorems": [
    "Oplab.Props.C245_time_partial",
    "Oplab.Props.C245_time_false",
    "Oplab.Props.C245_order_false",
    "Oplab.Props.C245_images_partial",
    "Oplab.Props.C245_images_false",
    "Oplab.Props.C245_pairs",
    "Oplab.Props.C245_records_partial",
    "Oplab.Props.C245_stray_false"
   ],
   "note": "C245_records_partial: from bags to records, for stamps of at least 0.1 s and no two in the same 10 ns: one record per image with its time and file (and the same file as the other camera, C154). C245_time_partial: time read from a name. C245_time_false: stamps below 0.1 s, as in simulation, are read ten times or more too late or not at all. C245_order_false: stamps in the same 10 ns become equal, since the last digit is cut with the suffix. C245_images_partial: distinct stamps are all in the folder. C245_images_false: images with the same stamp, as from two cameras, replace each other. C245_stray_false: any other file ends the parser. Contents and encoding of images are a parameter."
  },
  {
   "property": "C246",
   "status": "partial",
   "theorems": [
    "Oplab.Props.C246_inputs",
    "Oplab.Props.C246_logged_partial",
    "Oplab.Props.C246_used",
    "Oplab.Props.C246_default_false",
    "Oplab.Props.C246_camera_false",
    "Oplab.Props.C246_same_time_false",
    "Oplab.Props.C246_parse_camera_false",
    "Oplab.Props.C246_parse_partial"
   ],
   "note": "C246_inputs: in every history a file that exists is only changed by an edit. C246_logged_partial: mission, vehicle, auv_nav.yaml and correct_images.yaml are in the log and stay, if auv_nav.yaml existed and no later run has the same time. C246_default_false: the default auv_nav.yaml that a first run writes and uses is not logged, since it is copied before process starts. C246_camera_false: the camera.yaml used by correct_images is not logged. C246_same_time_false: runs in the same second replace each other's copies, also with different suffixes. C246_parse_camera_false: without camera.yaml in the raw folder parse fails. C246_parse_partial: with it, it goes on. The contents and their loading are parameters."
  },
  {
   "property": "C247",
   "status": "partial",
   "theorems": [
    "Oplab.Props.C247_bytes_partial",
    "Oplab.Props.C247_white_false",
    "Oplab.Props.C247_brighter_false",
    "Oplab.Props.C247_brighter_partial",
    "Oplab.Props.C247_turned",
    "Oplab.Props.C247_place_false",
    "Oplab.Props.C247_stats",
    "Oplab.Props.C247_files_partial",
    "Oplab.Props.C247_refused",
    "Oplab.Props.C247_sources_false",
    "Oplab.Props.C247_grey_false"
   ],
   "note": "C247_files_partial: what is written for images of three channels and one size in another folder, and that nothing else changes. C247_stats: mean and variance per pixel. C247_turned, C247_place_false: the statistics are used with rows and columns exchanged, for every separable way of resizing. C247_white_false, C247_brighter_false: white becomes 0, since 256 does not fit a byte. C247_bytes_partial, C247_brighter_partial: below white. C247_sources_false: writing to the folder of the images replaces them. C247_grey_false: images without colour are refused. Resizing, the square root and the random sample are parameters; zero deviations and the limit on disk space are not modelled."
  },
  {
   "property": "C248",
   "status": "partial",
   "theorems": [
    "Oplab.Props.C248_path",
    "Oplab.Props.C248_found",
    "Oplab.Props.C248_add_partial",
    "Oplab.Props.C248_add_false",
    "Oplab.Props.C248_vertex",
    "Oplab.Props.C248_edges"
   ],
   "note": "C248_path: what is returned is a simple path along edges. C248_found: a path is returned exactly if there is one; the search is a total function, with the keys not yet visited as measure. C248_edges: every edge once. C248_vertex. C248_add_partial: one edge between the two ends is added and all paths stay. C248_add_false: its direction depends on the hashes of the ends."
  },
  {
   "property": "C249",
   "status": "partial",
   "theorems": [
    "Oplab.Props.C249_during",
    "Oplab.Props.C249_finished",
    "Oplab.Props.C249_after_partial",
    "Oplab.Props.C249_kept",
    "Oplab.Props.C249_unknown",
    "Oplab.Props.C249_left_false",
    "Oplab.Props.C249_cleanup_false",
    "Oplab.Props.C249_stack"
   ],
   "note": "C249_finished: a run without errors leaves nothing, for every interleaving. C249_during: exactly what the folder holds while the bins are computed. C249_after_partial: what a run that ends later leaves. C249_kept: no file of others is removed. C249_unknown: an unknown smoothing method never finishes. C249_stack: slices of the stack. C249_left_false: a run that fails leaves the maps and stacks, since cleanup is only called at the end. C249_cleanup_false: cleanup would not remove the stacks, whose names only the copies of the corrector in other processes have."
  },
  {
   "property": "C250",
   "status": "partial",
   "theorems": [
    "Oplab.Props.C250_table",
    "Oplab.Props.C250_listed_partial",
    "Oplab.Props.C250_order",
    "Oplab.Props.C250_removes",
    "Oplab.Props.C250_keeps_partial",
    "Oplab.Props.C250_training_partial",
    "Oplab.Props.C250_grey_false",
    "Oplab.Props.C250_spot_false",
    "Oplab.Props.C250_keeps_false",
    "Oplab.Props.C250_comma_false",
    "Oplab.Props.C250_training_false",
    "Oplab.Props.C250_read_back"
   ],
   "note": "C250_table: one row per image, jpg before png, with the brightest mean of channels, exactly if all images have channels. C250_listed_partial: listed are exactly the images with a pixel whose mean is above the threshold, for paths without commas and quotes. C250_order. C250_removes: the command removes every listed line. C250_keeps_partial, C250_training_partial: end to end with correct_images. C250_grey_false: one grey image ends the script. C250_spot_false: a saturated red spot is not listed. C250_keeps_false: 1.png also removes 11.png. C250_comma_false: paths with commas are kept. C250_training_false: an image of the same name with another extension brings the bright one back. C250_read_back: a reader of csv files gets every path of the list back."
  },
  {
   "property": "C251",
   "status": "partial",
   "theorems": [
    "Oplab.Props.C251_files_partial",
    "Oplab.Props.C251_files_false",
    "Oplab.Props.C251_inputs",
    "Oplab.Props.C251_none",
    "Oplab.Props.C251_listing_partial",
    "Oplab.Props.C251_convert_partial",
    "Oplab.Props.C251_listing_false"
   ],
   "note": "C251_files_partial: what is read is a position file; names that end in other characters than F, I, X are all read. C251_files_false: the pattern [!FIX] is a set of characters, so KOYO_II.csv is not read. C251_inputs, C251_none: missing inputs. C251_listing_partial, C251_convert_partial: any order of listing gives the same records and the same outputs if no two records have the same time. C251_listing_false: otherwise not."
  },
  {
   "property": "C252",
   "status": "partial",
   "theorems": [
    "Oplab.Props.C252_used",
    "Oplab.Props.C252_found_partial",
    "Oplab.Props.C252_dives",
    "Oplab.Props.C252_acfr",
    "Oplab.Props.C252_found_false",
    "Oplab.Props.C252_folder_false",
    "Oplab.Props.C252_listing_false",
    "Oplab.Props.C252_same_false"
   ],
   "note": "C252_used: the table exists, is of the camera, and comes from the configured or first listed folder, from the filter exactly if its folder exists. C252_found_partial. C252_dives: independence of the dives before. C252_acfr: the ACFR conversion and rescaling agree. C252_found_false: another entry json_... listed first. C252_folder_false: a filter folder without a table for the camera hides dead reckoning. C252_listing_false, C252_same_false."
  },
  {
   "property": "C253",
   "status": "partial",
   "theorems": [
    "Oplab.Props.C253_file_partial",
    "Oplab.Props.C253_ties_false",
    "Oplab.Props.C253_invalid_false",
    "Oplab.Props.C253_gaps",
    "Oplab.Props.C253_gaps_partial",
    "Oplab.Props.C253_run_partial",
    "Oplab.Props.C253_gaps_false",
    "Oplab.Props.C253_mixed_false",
    "Oplab.Props.C253_dat_names"
   ],
   "note": "C253_file_partial: the file is the same for every order of records, logs and sensors if time stamps differ. C253_gaps: a folder gives the fixes of its logs, one after the other, if each can be read by itself. C253_gaps_partial: any listing gives the same fixes, each from one log. C253_run_partial: composition, the navigation file is the same for every listing. C253_ties_false: equal stamps. C253_invalid_false: an invalid record first drops the sensor, later it stops the program. C253_gaps_false: a log that lacks a heading can be read only after another. C253_mixed_false: it then takes the heading of the other log. C253_dat_names: exactly the files with .dat in their names are read."
  },
  {
   "property": "C254",
   "status": "partial",
   "theorems": [
    "Oplab.Props.C254_messages",
    "Oplab.Props.C254_command",
    "Oplab.Props.C254_before",
    "Oplab.Props.C254_screen",
    "Oplab.Props.C254_single_false",
    "Oplab.Props.C254_folder",
    "Oplab.Props.C254_folder_false",
    "Oplab.Props.C254_bar"
   ],
   "note": "C254_command: contents of the log of a command in a process that logs nowhere else, and of all other files. C254_messages: contents for every history of opened logs. C254_before, C254_screen, C254_folder, C254_bar. C254_single_false: handlers are never removed, so the log also gets the messages of later commands. C254_folder_false: the two programs keep the log of several dives with different dives."
  },
  {
   "property": "C255",
   "status": "partial",
   "theorems": [
    "Oplab.Props.C255_all_partial",
    "Oplab.Props.C255_schedules",
    "Oplab.Props.C255_again_partial",
    "Oplab.Props.C255_refused",
    "Oplab.Props.C255_patterns",
    "Oplab.Props.C255_mono_false",
    "Oplab.Props.C255_sources_false"
   ],
   "note": "C255_all_partial: result for every interleaving, also in place. C255_schedules: any two schedules give the same files. C255_again_partial: sources kept and a second run gives the same if another folder or not PNG. C255_refused, C255_patterns. C255_mono_false: MONO, offered by the help text, writes nothing. C255_sources_false: PNG images in place are replaced."
  },
  {
   "property": "C256",
   "status": "partial",
   "theorems": [
    "Oplab.Props.C256_images",
    "Oplab.Props.C256_sorted",
    "Oplab.Props.C256_listing",
    "Oplab.Props.C256_once_partial",
    "Oplab.Props.C256_once_false",
    "Oplab.Props.C256_pattern",
    "Oplab.Props.C256_stamp_partial",
    "Oplab.Props.C256_stamp_false"
   ],
   "note": "C256_images, C256_sorted, C256_listing (independence of the order of folders and listings), C256_once_partial, C256_pattern, C256_stamp_partial. C256_once_false: a folder given twice. C256_stamp_false: of several matching time files the last listed is used."
  },
  {
   "property": "C257",
   "status": "partial",
   "theorems": [
    "Oplab.Props.C257_rows_partial",
    "Oplab.Props.C257_pf_false",
    "Oplab.Props.C257_laser_name_false",
    "Oplab.Props.C257_complete",
    "Oplab.Props.C257_at_dvl",
    "Oplab.Props.C257_written"
   ],
   "note": "C257_rows_partial (name, track and mounting position of every file), C257_complete. C257_pf_false: with the particle filter on and no position fix its image files are written without poses. C257_laser_name_false: if the first BioCam camera records the laser, the laser images are placed at it but named after the second. C257_written: the files are written whatever number of cameras the mission has. C257_at_dvl: the file of laser images at the DVL is written."
  },
  {
   "property": "C258",
   "status": "partial",
   "theorems": [
    "Oplab.Props.C258_cloud",
    "Oplab.Props.C258_files",
    "Oplab.Props.C258_names",
    "Oplab.Props.C258_extension",
    "Oplab.Props.C258_limit_false",
    "Oplab.Props.C258_pictures_partial",
    "Oplab.Props.C258_pictures_false"
   ],
   "note": "C258_cloud (a PLY reader gets back every cloud), C258_files, C258_names, C258_pictures_partial (histories without overwriting and with one number of lasers). C258_limit_false: max_cloud_size bounds what is saved, not what is fitted. C258_pictures_false: pictures are not redrawn when detections are overwritten."
  },
  {
   "property": "C259",
   "status": "partial",
   "theorems": [
    "Oplab.Props.C259_figures",
    "Oplab.Props.C259_row_partial",
    "Oplab.Props.C259_row_false",
    "Oplab.Props.C259_names",
    "Oplab.Props.C259_figure_name",
    "Oplab.Props.C259_plots_partial",
    "Oplab.Props.C259_all",
    "Oplab.Props.C259_plots_false",
    "Oplab.Props.C259_curves_partial",
    "Oplab.Props.C259_saved_false",
    "Oplab.Props.C259_saved_partial"
   ],
   "note": "C259_figures, C259_names, C259_row_partial (images more than half as wide as high), C259_plots_partial, C259_all, C259_curves_partial and C259_saved_partial (at least 100 pixels). C259_row_false: rows of narrow images without figure. C259_plots_false: image_corrected_std_1.png and _2.png show the first channel. C259_saved_false: with fewer than 100 pixels the plot fails with a ValueError before the parameters are saved. C259_figure_name: the exact name of a figure, with four digits for each coordinate."
  },
  {
   "property": "C260",
   "status": "partial",
   "theorems": [
    "Oplab.Props.C260_start",
    "Oplab.Props.C260_depth",
    "Oplab.Props.C260_fix",
    "Oplab.Props.C260_compass",
    "Oplab.Props.C260_velocity_partial",
    "Oplab.Props.C260_velocity_false"
   ],
   "note": "C260_start, C260_depth, C260_fix, C260_compass, C260_velocity_partial (no turning or DVL at the centre). C260_velocity_false: the filter works with the velocity of the DVL but starts with the lever arm corrected one."
  },
  {
   "property": "C261",
   "status": "partial",
   "theorems": [
    "Oplab.Props.C261_camera",
    "Oplab.Props.C261_read",
    "Oplab.Props.C261_only",
    "Oplab.Props.C261_files",
    "Oplab.Props.C261_found",
    "Oplab.Props.C261_label",
    "Oplab.Props.C261_names_partial",
    "Oplab.Props.C261_apart_partial",
    "Oplab.Props.C261_finds_partial",
    "Oplab.Props.C261_names_false",
    "Oplab.Props.C261_apart_false",
    "Oplab.Props.C261_finds_false",
    "Oplab.Props.C261_named_false"
   ],
   "note": "C261_camera, C261_read, C261_only, C261_files, C261_label; C261_names_partial, C261_apart_partial, C261_finds_partial (names without slash). C261_names_false: the first letter of a name with a slash is dropped whatever it is. C261_apart_false: /a/b and /a_b clash. C261_finds_false: the same topic in both files is not found since mission.yaml keeps slashes. C261_named_false: an empty item gives a camera without name. C261_found: a camera is found exactly if one has its name."
  },
  {
   "property": "C262",
   "status": "partial",
   "theorems": [
    "Oplab.Props.C262_settings_partial",
    "Oplab.Props.C262_settings_false",
    "Oplab.Props.C262_accepted",
    "Oplab.Props.C262_unused",
    "Oplab.Props.C262_outputs_partial",
    "Oplab.Props.C262_outputs_false",
    "Oplab.Props.C262_second",
    "Oplab.Props.C262_first",
    "Oplab.Props.C262_used",
    "Oplab.Props.C262_whole"
   ],
   "note": "C262_settings_partial (all settings but one), C262_accepted, C262_unused, C262_outputs_partial (section detection given). C262_settings_false: max_points_per_bin of the file that comes with the program is read as max_bin_elements and has no effect. C262_unused: max_cloud_size, sample_size_ratio, goal_inliers_ratio and max_iterations do not matter for the result. C262_outputs_false: without the section detection the laser is written and then a KeyError ends the program. C262_second, C262_first: which files are written for which values; C262_used, C262_whole: what becomes of the numbers."
  },
  {
   "property": "C263",
   "status": "partial",
   "theorems": [
    "Oplab.Props.C263_device_partial",
    "Oplab.Props.C263_cameras_partial",
    "Oplab.Props.C263_device_false",
    "Oplab.Props.C263_cameras_false",
    "Oplab.Props.C263_optional_false",
    "Oplab.Props.C263_manual_false",
    "Oplab.Props.C263_heading"
   ],
   "note": "C263_device_partial (origin is not given or the default), C263_cameras_partial (the first camera has an origin if this one has), C263_heading (old files). C263_device_false: the origin of a sensor is checked for existence, but the sensor takes the default node. C263_cameras_false: if the first camera has no origin, those of the others are overwritten by their names. C263_optional_false: if the first has one and another has none, the program ends. C263_manual_false: the mission.yaml of the manual has an origin without a date, and cannot be read."
  },
  {
   "property": "C264",
   "status": "partial",
   "theorems": [
    "Oplab.Props.C264_traces",
    "Oplab.Props.C264_complete",
    "Oplab.Props.C264_titles",
    "Oplab.Props.C264_span",
    "Oplab.Props.C264_rate",
    "Oplab.Props.C264_table",
    "Oplab.Props.C264_times_partial",
    "Oplab.Props.C264_times_late",
    "Oplab.Props.C264_times_false",
    "Oplab.Props.C264_drawn_false",
    "Oplab.Props.C264_exit_false",
    "Oplab.Props.C264_exit_partial",
    "Oplab.Props.C264_drawn_partial"
   ],
   "note": "C264_traces, C264_complete, C264_titles, C264_span, C264_table, C264_rate, C264_times_partial (not the last half microsecond of a second), C264_drawn_partial (frames body and inertial, no eleven records at one time), C264_exit_partial. C264_times_false: times in the last half microsecond are drawn a second early (C264_times_late). C264_drawn_false: two records of another frame raise a TypeError. C264_exit_false: eleven records of one time end the program with exit code 0, and the dives that follow are not parsed."
  },
  {
   "property": "C265",
   "status": "partial",
   "theorems": [
    "Oplab.Props.C265_frame",
    "Oplab.Props.C265_grow",
    "Oplab.Props.C265_slider",
    "Oplab.Props.C265_steps_partial",
    "Oplab.Props.C265_last",
    "Oplab.Props.C265_particles",
    "Oplab.Props.C265_names_partial",
    "Oplab.Props.C265_names_false",
    "Oplab.Props.C265_short_false",
    "Oplab.Props.C265_particles_false",
    "Oplab.Props.C265_path_partial",
    "Oplab.Props.C265_end_false"
   ],
   "note": "C265_frame, C265_grow, C265_slider, C265_steps_partial (paths of at least 40 seconds), C265_last, C265_names_partial, C265_path_partial (no particle filter or no interval), C265_particles. C265_names_false: the path of the centre by the filter is called ekf_dvl. C265_short_false: under 40 seconds the step is 0 and the slider is not written. C265_end_false: the last frame never shows the last position. C265_particles_false: particles have no times, so with an interval, which the configuration that comes with the program has, neither file is written if the particle filter ran."
  },
  {
   "property": "C266",
   "status": "partial",
   "theorems": [
    "Oplab.Props.C266_velocity_partial",
    "Oplab.Props.C266_uncertainty_partial",
    "Oplab.Props.C266_velocity_false",
    "Oplab.Props.C266_uncertainty_false",
    "Oplab.Props.C266_position",
    "Oplab.Props.C266_orientation_false",
    "Oplab.Props.C266_orientation_partial",
    "Oplab.Props.C266_position_panels",
    "Oplab.Props.C266_orientation_panels"
   ],
   "note": "C266_velocity_partial, C266_uncertainty_partial (components given for all records or for none; north and east velocities for all), C266_position, C266_orientation_partial (lines, not names). C266_velocity_false: a record without north velocity and the file is not written. C266_uncertainty_false: only the first record decides if a component is drawn. C266_orientation_false: lower bounds of angles are called upper bounds. C266_position_panels, C266_orientation_panels: values, bounds and deviations are drawn in their panels."
  },
  {
   "property": "C267",
   "status": "partial",
   "theorems": [
    "Oplab.Props.C267_pixels",
    "Oplab.Props.C267_centre_partial",
    "Oplab.Props.C267_drawn_false",
    "Oplab.Props.C267_drawn_partial",
    "Oplab.Props.C267_adds_false",
    "Oplab.Props.C267_altitudes",
    "Oplab.Props.C267_step_false",
    "Oplab.Props.C267_plane_partial",
    "Oplab.Props.C267_plane_false",
    "Oplab.Props.C267_made_partial",
    "Oplab.Props.C267_made_false",
    "Oplab.Props.C267_points"
   ],
   "note": "C267_pixels, C267_centre_partial, C267_drawn_partial (points between two rows), C267_altitudes, C267_plane_partial (planes y = -d), C267_made_partial (no point beyond the middle of the last row). C267_drawn_false and C267_adds_false: a point right on a row is drawn black. C267_step_false: steps are stretched if they do not divide the range. C267_plane_false: only the last coefficient of the plane is used. C267_made_false: a point in the lower half of the last row is an IndexError. C267_points: number and spacing of the points of an altitude."
  },
  {
   "property": "C268",
   "status": "partial",
   "theorems": [
    "Oplab.Props.C268_mono_partial",
    "Oplab.Props.C268_force",
    "Oplab.Props.C268_same",
    "Oplab.Props.C268_stereo_partial",
    "Oplab.Props.C268_laser_partial",
    "Oplab.Props.C268_laser_same",
    "Oplab.Props.C268_stereo_same",
    "Oplab.Props.C268_mono_false",
    "Oplab.Props.C268_detections_false",
    "Oplab.Props.C268_laser_false",
    "Oplab.Props.C268_stereo_false"
   ],
   "note": "C268_mono_partial, C268_stereo_partial (two cameras of one size, without -F), C268_laser_partial (one laser, or -F): for every point at which no file is being written. C268_force: mono with -FF, for every point. C268_same: a run that is not killed is that of the model of C114 to C118. C268_mono_false: a calibration that was being written counts as made and stays incomplete. C268_detections_false: detections that were being written make every run but one with -FF fail. C268_laser_false: killed between the planes of two lasers, the second is never written. C268_stereo_false: with -F, the next run can use an old monocular calibration that the run would have replaced. C268_laser_same, C268_stereo_same: runs that are not killed leave the files of CalFiles."
  },
  {
   "property": "C269",
   "status": "partial",
   "theorems": [
    "Oplab.Props.C269_origin",
    "Oplab.Props.C269_filter_partial",
    "Oplab.Props.C269_dead_reckoning_partial",
    "Oplab.Props.C269_filter_false",
    "Oplab.Props.C269_window_false",
    "Oplab.Props.C269_killed_false",
    "Oplab.Props.C269_repeat_partial",
    "Oplab.Props.C269_repeat_false",
    "Oplab.Props.C269_relative_partial",
    "Oplab.Props.C269_relative_false",
    "Oplab.Props.C269_never_overlooked"
   ],
   "note": "C269_origin: for all histories, killed runs included, a table of poses is that of the last run that was not refused and wrote it. C269_filter_partial: the positions of the last run are used if all runs are for the same window and the last one writes the camera by the filter. C269_dead_reckoning_partial: likewise if no run uses the filter. C269_filter_false: after a forced run without the filter, the old positions of an earlier run with the filter are used. C269_window_false: with two windows, the folder that the system lists first is used. C269_killed_false: after a forced run that was killed, the cameras have positions of two runs. C269_repeat_partial: the same command with -F after a killed run writes all its tables; C269_repeat_false: without -F it is refused and tables are missing for good. C269_relative_partial: a run for relative uncertainties of a window that was processed changes nothing; C269_relative_false: for another window it leaves an empty folder, and corrections that find it first stop. C269_never_overlooked: a table of the filter in the configured folder is used, also after killed runs."
  },
  {
   "property": "C270",
   "status": "partial",
   "theorems": [
    "Oplab.Props.C270_columns",
    "Oplab.Props.C270_run",
    "Oplab.Props.C270_speeds",
    "Oplab.Props.C270_rejected",
    "Oplab.Props.C270_spread_false",
    "Oplab.Props.C270_fields",
    "Oplab.Props.C270_one_field"
   ],
   "note": "C270_columns, C270_speeds: the columns drawn and the plot of velocities, for all lists of estimates with variances that are not negative; C270_run: those of every run of the filter are such. C270_rejected: for every run, as many points per sensor as the report has dropped measurements, at times of measurements of the sensor, in order. C270_spread_false: the standard deviations of the particle filter are never computed, its plot is empty. Bounds of positions and orientations: C266. Not covered: texts of the points, smoothed estimates. C270_fields, C270_one_field: the fields of the grid in which the lines are drawn."
  },
  {
   "property": "C271",
   "status": "partial",
   "theorems": [
    "Oplab.Props.C271_size_partial",
    "Oplab.Props.C271_kept",
    "Oplab.Props.C271_folder",
    "Oplab.Props.C271_flag_false",
    "Oplab.Props.C271_shipped_false"
   ],
   "note": "C271_size_partial: for all sections and disks, the section of an image and the size of its pixels; C271_kept: images that keep their size; C271_folder: a section without a folder ends the command. C271_flag_false: the documented flag 'N' keeps the size, any text is true. C271_shipped_false: the size 0.01 in the shipped settings, with the comment 'in meters', is read as centimetres, so that pixels are a hundred times smaller. Numbers are exact; what the interpolation of PIL computes is not covered."
  },
  {
   "property": "C272",
   "status": "partial",
   "theorems": [
    "Oplab.Props.C272_complete_partial",
    "Oplab.Props.C272_killed_partial",
    "Oplab.Props.C272_single_false",
    "Oplab.Props.C272_race_false",
    "Oplab.Props.C272_altitude_false"
   ],
   "note": "C272_complete_partial: for all measurements, schedules and changes by the main thread, tables of at least two measurements, read back by column. C272_killed_partial: a run killed at any step leaves the old table or the first measurements. C272_single_false: one measurement leaves no table. C272_race_false: the main thread removes the first inertial velocity from the list that a thread is still writing, so that the table may lack a measurement. C272_altitude_false: altitudes have no column for their uncertainty. A step is one line of a table; the texts of values are a parameter without commas."
  },
  {
   "property": "C273",
   "status": "partial",
   "theorems": [
    "Oplab.Props.C273_targets_partial",
    "Oplab.Props.C273_few_images_partial",
    "Oplab.Props.C273_uniform_partial",
    "Oplab.Props.C273_clipped_false",
    "Oplab.Props.C273_written_false"
   ],
   "note": "For every channel of every pixel, for all images and altitudes. C273_targets_partial: mean and deviation with the parameters that parse computes, if no value is clipped. C273_few_images_partial: nothing is clipped if the contrast times the square root of the number of images is at most the brightness and what it lacks to 100. C273_uniform_partial: the same without altitudes. C273_clipped_false: clipping moves the mean. C273_written_false: the gamma correction follows, the images written with the shipped settings have a mean above 36 instead of 30."
  },
  {
   "property": "C274",
   "status": "partial",
   "theorems": [
    "Oplab.Props.C274_written",
    "Oplab.Props.C274_forty_partial",
    "Oplab.Props.C274_good_first_partial",
    "Oplab.Props.C274_few",
    "Oplab.Props.C274_undetected",
    "Oplab.Props.C274_eight_false"
   ],
   "note": "C274_written: what is written comes from at least eight different pairs and is not worse than the first calibration; C274_few: fewer than eight pairs are never enough. C274_good_first_partial: eight are enough if the first error is at most 0.6. C274_forty_partial: 40 are enough whatever the solver and the errors are, unless all errors are equal, because at most a fifth of the pairs is removed in each of four iterations. False in full: one of eight pairs is removed and the program gives up (C274_eight_false); if the pattern is found again in no image all pairs are removed, however many there are (C274_undetected)."
  },
  {
   "property": "C275",
   "status": "partial",
   "theorems": [
    "Oplab.Props.C275_listed_partial",
    "Oplab.Props.C275_same_images_partial",
    "Oplab.Props.C275_unforced_partial",
    "Oplab.Props.C275_leftover_false",
    "Oplab.Props.C275_list_false",
    "Oplab.Props.C275_repeat_false"
   ],
   "note": "C275_unforced_partial: without -F all files of the folder come from one run, and the list is only there if it holds exactly the images of this run. C275_listed_partial: after a run with -F the list and the images listed are those of this run, whatever came before. C275_same_images_partial: nothing else is there if earlier runs corrected no other images. False in full: images of earlier runs stay (C275_leftover_false); a killed run with -F leaves the old list beside new images (C275_list_false); a killed run cannot be completed without -F (C275_repeat_false)."
  },
  {
   "property": "C276",
   "status": "partial",
   "theorems": [
    "Oplab.Props.C276_path_partial",
    "Oplab.Props.C276_images_partial",
    "Oplab.Props.C276_opposite_false"
   ],
   "note": "C276_path_partial: the dead reckoning path aligned with the fixes, unless two headings at most two measurements apart are exactly opposite. C276_images_partial: which images get a pose and the poses, unless two headings of the dive are exactly opposite. Both runs also fail alike. Without fixes the path starts at zero, so that shifts are then excluded. Latitudes, standard deviations and the filters of the fixes are left out. False in full: between exactly opposite headings the vehicle is taken to turn the other way round after the move (C276_opposite_false)."
  },
  {
   "property": "C277",
   "status": "partial",
   "theorems": [
    "Oplab.Props.C277_filter_partial",
    "Oplab.Props.C277_smoother",
    "Oplab.Props.C277_fallback_false"
   ],
   "note": "C277_filter_partial: the whole run of the filter, including which runs fail, for fixes (and depths, if they are shifted) with uncertainties. C277_smoother: the smoother on any list of estimates. False in full: without uncertainties a fix is trusted less the farther it is from the reference position (C277_fallback_false)."
  },
  {
   "property": "C278",
   "status": "partial",
   "theorems": [
    "Oplab.Props.C278_moved_partial",
    "Oplab.Props.C278_depth_false"
   ],
   "note": "C278_moved_partial: for every delay and horizontal shift without conditions, including which runs fail; for other depths and headings if the deviation of depths or angles has no factor and no fix is used before the first entry of dead reckoning. Headings are not wrapped to 0-360 degrees. False in full: the noise of depths grows with the depth (C278_depth_false)."
  },
  {
   "property": "C279",
   "status": "partial",
   "theorems": [
    "Oplab.Props.C279_exposure",
    "Oplab.Props.C279_order",
    "Oplab.Props.C279_repeated",
    "Oplab.Props.C279_altitude_false"
   ],
   "note": "C279_exposure, C279_order, C279_repeated: for the metric uniform, for every channel of every pixel (before rounding; a pixel with the same value in all images, for which numpy divides by zero, is outside the model). False with a metric of distance: values above 0.95 are left out of the statistics (C279_altitude_false); for exposures below that see C226_same_floor."
  },
  {
   "property": "C280",
   "status": "partial",
   "theorems": [
    "Oplab.Props.C280_shows_partial",
    "Oplab.Props.C280_only",
    "Oplab.Props.C280_indent",
    "Oplab.Props.C280_corner",
    "Oplab.Props.C280_no_root",
    "Oplab.Props.C280_shows_false"
   ],
   "note": "Soundness, order, indentation and corners for all trees (C280_only, C280_indent, C280_corner); completeness for trees with not more folders than the greatest depth, 100 by default (C280_shows_partial). False in full: the depth is counted up from one folder to the next one beside it, so the content of later folders is missing (C280_shows_false). Children are given in the order of sorted; folders that cannot be listed are not modelled."
  },
  {
   "property": "C281",
   "status": "partial",
   "theorems": [
    "Oplab.Props.C281_product_partial",
    "Oplab.Props.C281_hamilton",
    "Oplab.Props.C281_inverse",
    "Oplab.Props.C281_euler",
    "Oplab.Props.C281_quaternion",
    "Oplab.Props.C281_names",
    "Oplab.Props.C281_names_false",
    "Oplab.Props.C281_product_false",
    "Oplab.Props.C281_axis",
    "Oplab.Props.C281_axis_quaternion_partial",
    "Oplab.Props.C281_axis_quaternion_false",
    "Oplab.Props.C281_mirror",
    "Oplab.Props.C281_slerp_unit",
    "Oplab.Props.C281_slerp",
    "Oplab.Props.C281_slerp_spin_false",
    "Oplab.Props.C281_angles_back",
    "Oplab.Props.C281_angles_locked",
    "Oplab.Props.C281_quaternion_back"
   ],
   "note": "Proved for all 24 names (C281_euler, C281_quaternion, C281_names), C281_hamilton, C281_inverse, C281_axis, C281_mirror, C281_slerp, C281_slerp_unit. Products and axes only above the smallest length (C281_product_partial, C281_axis_quaternion_partial; C281_product_false, C281_axis_quaternion_false: shorter ones do not turn). False: capital letters are taken by quaternion_from_euler only (C281_names_false); with an odd spin the interpolated quaternion does not have length 1 (C281_slerp_spin_false). Exact reals; reflection_from_matrix and the other functions that need eigenvectors are not modelled. C281_angles_back: angles found from a matrix give the matrix back, except next to the end of the range of the middle angle; C281_quaternion_back: the quaternion found from a matrix is the one it was made of or its opposite; C281_angles_locked: exactly at the end of the range of the middle angle the matrix is recovered with one angle zero."
  },
  {
   "property": "C282",
   "status": "partial",
   "theorems": [
    "Oplab.Props.C282_part_partial",
    "Oplab.Props.C282_found_partial",
    "Oplab.Props.C282_path_partial",
    "Oplab.Props.C282_poses_partial",
    "Oplab.Props.C282_edge_false"
   ],
   "note": "Proved at all times between the first and the last orientation of the part (C282_part_partial, C282_found_partial, C282_path_partial), also for the poses of the vehicle after the shift onto any USBL fixes (C282_poses_partial). False at the edges, where the turn rate for the lever arm is taken from one side only (C282_edge_false). Sensors have records in strictly increasing order of time; dead reckoning only."
  },
  {
   "property": "C283",
   "status": "partial",
   "theorems": [
    "Oplab.Props.C283_alone_partial",
    "Oplab.Props.C283_alone_false",
    "Oplab.Props.C283_part_partial"
   ],
   "note": "Proved for measurements after a pose of the vehicle and not after one that comes before the last measurement (C283_alone_partial), and for parts of dives (C283_part_partial). False for the last measurements: the search for the pose is stopped by the time of the last measurement (C283_alone_false)."
  },
  {
   "property": "C284",
   "status": "proved",
   "theorems": [
    "Oplab.Props.C284_carried"
   ],
   "note": "Proved for real numbers, with standard deviations left as they are (C284_carried)."
  },
  {
   "property": "C285",
   "status": "partial",
   "theorems": [
    "Oplab.Props.C285_faster_partial",
    "Oplab.Props.C285_factor_partial",
    "Oplab.Props.C285_factor_false"
   ],
   "note": "Proved of the highest speed (C285_faster_partial) and, with the distance filter switched off, of the factor (C285_factor_partial). False of the factor otherwise: a wrong fix let through the depth filter makes the distance filter drop its right neighbours (C285_factor_false)."
  },
  {
   "property": "C286",
   "status": "partial",
   "theorems": [
    "Oplab.Props.C286_orthogonal",
    "Oplab.Props.C286_parallel",
    "Oplab.Props.C286_perspective",
    "Oplab.Props.C286_pseudo",
    "Oplab.Props.C286_scale",
    "Oplab.Props.C286_scale_along",
    "Oplab.Props.C286_shear",
    "Oplab.Props.C286_shear_made",
    "Oplab.Props.C286_shear_height_partial",
    "Oplab.Props.C286_shear_height_false"
   ],
   "note": "Proved of projections (C286_orthogonal, C286_parallel, C286_perspective, C286_pseudo), of scaling (C286_scale, C286_scale_along) and of the way points move in a shear (C286_shear, C286_shear_made). Points keep their height if the direction lies in the plane (C286_shear_height_partial). False otherwise: directions up to a millionth out of the plane are accepted (C286_shear_height_false)."
  },
  {
   "property": "C287",
   "status": "proved",
   "theorems": [
    "Oplab.Props.C287_box",
    "Oplab.Props.C287_pyramid",
    "Oplab.Props.C287_accepted"
   ],
   "note": "Proved of boxes (C287_box), of pyramids for all points that have coordinates at all (C287_pyramid) and of what is accepted (C287_accepted)."
  },
  {
   "property": "C288",
   "status": "partial",
   "theorems": [
    "Oplab.Props.C288_random",
    "Oplab.Props.C288_sphere",
    "Oplab.Props.C288_arc_partial",
    "Oplab.Props.C288_arc_false",
    "Oplab.Props.C288_nearest",
    "Oplab.Props.C288_chosen"
   ],
   "note": "Proved of points (C288_sphere), of the chosen axis (C288_nearest; for points on the near half of the sphere there always is one, C288_chosen) and of random quaternions (C288_random). Proved of arcs for all axes but the one that points straight away (C288_arc_partial). False of that axis: a zero vector is normalised (C288_arc_false)."
  },
  {
   "property": "C289",
   "status": "proved",
   "theorems": [
    "Oplab.Props.C289_cell",
    "Oplab.Props.C289_refused"
   ],
   "note": "Proved for lengths that are not negative and for first and second angles between 0 and 180 degrees (C289_cell); what is refused does not exist (C289_refused)."
  }
 ]
}