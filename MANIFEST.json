{
 "claims": [
  {
   "property": "C01",
   "status": "proved",
   "theorems": [
    "Rovio.Distance.C01_new",
    "Rovio.Distance.C01_roundtrip",
    "Rovio.Distance.C01_inverse_clips",
    "Rovio.Distance.C01_inverse_bounded",
    "Rovio.Distance.C01_log_nonpos"
   ],
   "note": ""
  },
  {
   "property": "C02",
   "status": "proved",
   "theorems": [
    "Rovio.Distance.C02_distance_derivative",
    "Rovio.Distance.C02_reciprocal",
    "Rovio.Distance.C02_parameter_derivative",
    "Rovio.Distance.C02_combined_derivative",
    "Rovio.Distance.C02_clamped_derivative_wrong"
   ],
   "note": "Derivatives exact outside the clamp; inside the clamp the reported derivative is proved wrong (C02_clamped_derivative_wrong)."
  },
  {
   "property": "C03",
   "status": "proved",
   "theorems": [
    "Rovio.Distance.C03_conversion",
    "Rovio.Distance.C03_there_and_back",
    "Rovio.Distance.C03_set_type",
    "Rovio.Distance.C03_setType_does_not_convert"
   ],
   "note": ""
  },
  {
   "property": "C04",
   "status": "proved",
   "theorems": [
    "Rovio.Stat.C04_count_is_log_count",
    "Rovio.Stat.C04_counts_partition",
    "Rovio.Stat.C04_window_is_log_window",
    "Rovio.Stat.C04_window_partition",
    "Rovio.Stat.C04_window_needs_incremental",
    "Rovio.Stat.C04_camera_selection",
    "Rovio.Stat.C04_tracked_frames"
   ],
   "note": "Window counts need incremental time stamps (negation C04_window_needs_incremental)."
  },
  {
   "property": "C05",
   "status": "proved",
   "theorems": [
    "Rovio.Stat.C05_qualities_in_unit_interval",
    "Rovio.Stat.C05_needs_positive_range"
   ],
   "note": "Ranges below 1 break the bound (C05_needs_positive_range)."
  },
  {
   "property": "C06",
   "status": "proved",
   "theorems": [
    "Rovio.Stat.C06_getters_preview",
    "Rovio.Stat.C06_readback",
    "Rovio.Stat.C06_exponential"
   ],
   "note": ""
  },
  {
   "property": "C07",
   "status": "proved",
   "theorems": [
    "Rovio.Stat.C07_acceptance",
    "Rovio.Stat.C07_antitone",
    "Rovio.Stat.C07_extremes"
   ],
   "note": ""
  },
  {
   "property": "C08",
   "status": "proved",
   "theorems": [
    "Rovio.FC.C08_set_nor",
    "Rovio.FC.C08_set_c",
    "Rovio.FC.C08_set_c_roundtrip",
    "Rovio.FC.C08_finding_getJ_overwrites"
   ],
   "note": "The Jacobian query is the one exception; C08_finding_getJ_overwrites is the concrete violation."
  },
  {
   "property": "C09",
   "status": "proved",
   "theorems": [
    "Rovio.C09_camera_is_wf",
    "Rovio.FC.C09_in_front_has_pixel",
    "Rovio.FC.C09_pixel_iff_in_front",
    "Rovio.FC.C09_needs_camera"
   ],
   "note": ""
  },
  {
   "property": "C10",
   "status": "proved",
   "theorems": [
    "Rovio.FC.C10_near_identity",
    "Rovio.FC.C10_finding_flag_without_warp"
   ],
   "note": "C10_finding_flag_without_warp: the flag answers true although no warp is available."
  },
  {
   "property": "C11",
   "status": "proved",
   "theorems": [
    "Rovio.FC.C11_warps_agree",
    "Rovio.FC.C11_get_warp_c",
    "Rovio.FC.C11_get_warp_nor",
    "Rovio.FC.C11_finding_boxPlus_stale"
   ],
   "note": "C11_finding_boxPlus_stale: the state increment keeps a stale warp."
  },
  {
   "property": "C12",
   "status": "proved",
   "theorems": [
    "Rovio.Camera.C12_succeeds_iff",
    "Rovio.Camera.C12_ray_only",
    "Rovio.Camera.C12_not_both",
    "Rovio.Camera.C12_overload_same_pixel",
    "Rovio.Camera.C12_overload_same_pixel_bearing",
    "Rovio.Camera.C12_principal_point"
   ],
   "note": ""
  },
  {
   "property": "C13",
   "status": "proved",
   "theorems": [
    "Rovio.Camera.C13_distort",
    "Rovio.Camera.C13_bearingToPixel",
    "Rovio.Camera.C13_bearing_increment"
   ],
   "note": ""
  },
  {
   "property": "C14",
   "status": "proved",
   "theorems": [
    "Rovio.Camera.C14_success",
    "Rovio.Camera.C14_undistorted_roundtrip",
    "Rovio.Camera.C14_undistorted_roundtrip'",
    "Rovio.Camera.C14_finding_nonfinite_success"
   ],
   "note": "C14_finding_nonfinite_success: success with a NaN bearing when the normal matrix is singular."
  },
  {
   "property": "C15",
   "status": "proved",
   "theorems": [
    "Rovio.Camera.C15_equidist_radial",
    "Rovio.Camera.C15_doubleSphere_radial",
    "Rovio.Camera.C15_doubleSphere_den_pos",
    "Rovio.Camera.C15_azimuth",
    "Rovio.Camera.C15_equidist_injective",
    "Rovio.Camera.C15_finding_ds_centre_limit",
    "Rovio.Camera.C15_finding_ds_not_injective"
   ],
   "note": "C15_finding_ds_*: jump and lost injectivity of the double-sphere centre case."
  },
  {
   "property": "C16",
   "status": "proved",
   "theorems": [
    "Rovio.FeatSet.C16_make",
    "Rovio.FeatSet.C16_never_reused",
    "Rovio.FeatSet.C16_unique"
   ],
   "note": ""
  },
  {
   "property": "C17",
   "status": "proved",
   "theorems": [
    "Rovio.AddArgs.C17_effect",
    "Rovio.AddArgs.C17_threshold",
    "Rovio.AddArgs.C17_requireMax"
   ],
   "note": ""
  },
  {
   "property": "C18",
   "status": "proved",
   "theorems": [
    "Rovio.AddArgs.C18_spacing",
    "Rovio.AddArgs.C18_finding_requireMax_ignores_penalty"
   ],
   "note": "C18_finding_requireMax_ignores_penalty shows the feature tracker's documented spacing does not hold."
  },
  {
   "property": "C19",
   "status": "proved",
   "theorems": [
    "Rovio.AddArgs.C19_greedy"
   ],
   "note": ""
  },
  {
   "property": "C20",
   "status": "proved",
   "theorems": [
    "Rovio.AddArgs.C20_safe",
    "Rovio.AddArgs.C20_fill_in_bounds",
    "Rovio.AddArgs.C20_finding_negative_penalty",
    "Rovio.AddArgs.C20_finding_new_full",
    "Rovio.AddArgs.C20_new_safe"
   ],
   "note": "Findings: negative penalty leaves the bucket vector; addBestCandidatesNew writes to slot -1 on a full set."
  },
  {
   "property": "C21",
   "status": "proved",
   "theorems": [
    "Rovio.C21_defined",
    "Rovio.C21_range",
    "Rovio.C21_halving",
    "Rovio.C21_size",
    "Rovio.C21_monotone",
    "Rovio.C21_constant"
   ],
   "note": ""
  },
  {
   "property": "C22",
   "status": "proved",
   "theorems": [
    "Rovio.C22_compose",
    "Rovio.C22_roundtrip",
    "Rovio.C22_defined",
    "Rovio.C22_finding_warp_lost"
   ],
   "note": "C22_finding_warp_lost: a second level transform drops the warp."
  },
  {
   "property": "C23",
   "status": "proved",
   "theorems": [
    "Rovio.C23_block_mean",
    "Rovio.C23_block_centre",
    "Rovio.C23_finding_odd_sizes",
    "Rovio.C23_opencv_centre",
    "Rovio.C23_finding_opencv_odd"
   ],
   "note": "C23_finding_odd_sizes, C23_finding_opencv_odd: the offset is wrong for odd sizes, rows and columns are swapped."
  },
  {
   "property": "C24",
   "status": "proved",
   "theorems": [
    "Rovio.C24_in_bounds",
    "Rovio.C24_exact_plain"
   ],
   "note": ""
  },
  {
   "property": "C25",
   "status": "proved",
   "theorems": [
    "Rovio.C25_coarsest_decides",
    "Rovio.C25_finding_opencv_odd"
   ],
   "note": "C25_finding_opencv_odd: with the OpenCV pyramid, an odd size and a contracting warp the extraction reads outside the image."
  },
  {
   "property": "C26",
   "status": "proved",
   "theorems": [
    "Rovio.C26_between",
    "Rovio.C26_integer",
    "Rovio.C26_affine",
    "Rovio.C26_inner"
   ],
   "note": ""
  },
  {
   "property": "C27",
   "status": "proved",
   "theorems": [
    "Rovio.C27_score",
    "Rovio.C27_zero_iff_flat",
    "Rovio.C27_finding_stale_border",
    "Rovio.C27_multilevel",
    "Rovio.C27_specific_level"
   ],
   "note": "C27_finding_stale_border: extraction without border leaves the old score; the documentation calls s_ the smaller eigenvalue but it is the sum."
  },
  {
   "property": "C28",
   "status": "proved",
   "theorems": [
    "Rovio.C28_symmetric",
    "Rovio.C28_triangle",
    "Rovio.C28_zero_iff",
    "Rovio.C28_offset_invariant",
    "Rovio.C28_value"
   ],
   "note": ""
  },
  {
   "property": "C29",
   "status": "proved",
   "theorems": [
    "Rovio.C29_small_untouched",
    "Rovio.C29_loss",
    "Rovio.C29_monotone",
    "Rovio.C29_jacobian",
    "Rovio.C29_weighted"
   ],
   "note": ""
  },
  {
   "property": "C30",
   "status": "proved",
   "theorems": [
    "Rovio.C30_offset_invariant",
    "Rovio.C30_affine_zero",
    "Rovio.C30_flat_reference",
    "Rovio.C30_least_squares",
    "Rovio.C30_finding_gain_without_offset"
   ],
   "note": "C30_finding_gain_without_offset: estimating the gain without the offset does not remove a pure gain (regression uses the with-offset formula)."
  },
  {
   "property": "C31",
   "status": "proved",
   "theorems": [
    "Rovio.C31_align2D",
    "Rovio.C31_no_iterations",
    "Rovio.C31_levels",
    "Rovio.C31_single_level",
    "Rovio.C31_composed"
   ],
   "note": "The linear solver (Eigen SVD) is a parameter; NaN answers are an explicit outcome."
  },
  {
   "property": "C32",
   "status": "proved",
   "theorems": [
    "Rovio.Align.C32_finding_default_level",
    "Rovio.C32_best_seed",
    "Rovio.C32_simple_case",
    "Rovio.C32_coverage"
   ],
   "note": ""
  },
  {
   "property": "C33",
   "status": "proved",
   "theorems": [
    "Rovio.Img.C33_each_pair_once"
   ],
   "note": ""
  },
  {
   "property": "C34",
   "status": "proved",
   "theorems": [
    "Rovio.Img.C34_advance_once",
    "Rovio.Img.C34_finding_removed_before_visit",
    "Rovio.Img.C34_update_status"
   ],
   "note": ""
  },
  {
   "property": "C35",
   "status": "proved",
   "theorems": [
    "Rovio.Img.C35_forced_removal",
    "Rovio.Img.C35_finding_factor_at_most_one",
    "Rovio.Img.C35_finding_share_above_one",
    "Rovio.Img.C35_finding_counted_before_removal",
    "Rovio.Img.C35_image_update_total"
   ],
   "note": ""
  },
  {
   "property": "C36",
   "status": "proved",
   "theorems": [
    "Rovio.Img.C36_threshold",
    "Rovio.Img.C36_budget",
    "Rovio.Img.C36_last_camera",
    "Rovio.Img.C36_all_cameras"
   ],
   "note": ""
  },
  {
   "property": "C37",
   "status": "proved",
   "theorems": [
    "Rovio.Img.C37_nonpositive_removed",
    "Rovio.Img.C37_disabled",
    "Rovio.Img.C37_after_image"
   ],
   "note": ""
  },
  {
   "property": "C38",
   "status": "proved",
   "theorems": [
    "Rovio.ImgFull.C38_inputs",
    "Rovio.ImgFull.C38_imu",
    "Rovio.Img.C38_gate",
    "Rovio.Img.C38_timers",
    "Rovio.Img.C38_motion"
   ],
   "note": ""
  },
  {
   "property": "C39",
   "status": "proved",
   "theorems": [
    "Rovio.Img.C39_enumeration",
    "Rovio.Img.C39_grid",
    "Rovio.Img.C39_centre",
    "Rovio.Img.C39_ellipse",
    "Rovio.Img.C39_shift"
   ],
   "note": ""
  },
  {
   "property": "C40",
   "status": "proved",
   "theorems": [
    "Rovio.MultiCamera.C40_same_point",
    "Rovio.MultiCamera.C40_distance",
    "Rovio.MultiCamera.C40_there_and_back",
    "Rovio.MultiCamera.C40_via_third",
    "Rovio.MultiCamera.C40_parametrisation",
    "Rovio.MultiCamera.C40_warp"
   ],
   "note": ""
  },
  {
   "property": "C41",
   "status": "proved",
   "theorems": [
    "Rovio.C41_landmark",
    "Rovio.C41_camera_independent",
    "Rovio.C41_derivative",
    "Rovio.C41_jacobian",
    "Rovio.C41_finding_second_camera"
   ],
   "note": ""
  },
  {
   "property": "C42",
   "status": "proved",
   "theorems": [
    "Rovio.C42_finding_rate_covariance",
    "Rovio.C42_pose",
    "Rovio.C42_rigid",
    "Rovio.C42_imu_jacobian",
    "Rovio.C42_camera_derivative",
    "Rovio.C42_camera_jacobian",
    "Rovio.C42_finding_second_camera",
    "Rovio.C42_rate_covariance"
   ],
   "note": ""
  },
  {
   "property": "C43",
   "status": "proved",
   "theorems": [
    "Rovio.C43_messages",
    "Rovio.C43_roundtrip"
   ],
   "note": ""
  },
  {
   "property": "C44",
   "status": "proved",
   "theorems": [
    "Rovio.ImgFull.C44_first_absorbed",
    "Rovio.ImgFull.C44_life",
    "Rovio.ImgFull.C44_life_aligned",
    "Rovio.C44_first_innovation",
    "Rovio.C44_once",
    "Rovio.C44_disabled",
    "Rovio.C44_finding_reset"
   ],
   "note": "C44_first_absorbed: the whole update with the first pose in the filter model (LWF's Kalman equations as documented); C44_life: the stored alignment over lives of the filter from pixels with resets. C44_life_aligned: what the stored alignment is, if the update with the first pose has a result (its matrix is not singular)."
  },
  {
   "property": "C45",
   "status": "proved",
   "theorems": [
    "Rovio.C45_jacobian",
    "Rovio.C45_finding_same_index"
   ],
   "note": ""
  },
  {
   "property": "C46",
   "status": "proved",
   "theorems": [
    "Rovio.C46_columns",
    "Rovio.C46_noninterference"
   ],
   "note": "For the same sequence of prediction steps; LWF's Kalman equations are modelled as documented (LWF is not in the repository), merging or splitting of inertial measurements around update times is not. The recorded pose (display only) and the pixel caches are excluded."
  },
  {
   "property": "C47",
   "status": "proved",
   "theorems": [
    "Rovio.C47_configured",
    "Rovio.C47_uniform",
    "Rovio.C47_blocks",
    "Rovio.C47_finding_not_symmetric"
   ],
   "note": ""
  },
  {
   "property": "C48",
   "status": "proved",
   "theorems": [
    "Rovio.C48_zero",
    "Rovio.C48_jacobian"
   ],
   "note": ""
  },
  {
   "property": "C49",
   "status": "proved",
   "theorems": [
    "Rovio.C49_no_measurement",
    "Rovio.C49_run",
    "Rovio.C49_finding_not_in_place"
   ],
   "note": ""
  },
  {
   "property": "C50",
   "status": "proved",
   "theorems": [
    "Rovio.C50_static_landmark"
   ],
   "note": ""
  },
  {
   "property": "C51",
   "status": "proved",
   "theorems": [
    "Rovio.C51_state",
    "Rovio.C51_noise",
    "Rovio.C51_finding_extrinsic_noise",
    "Rovio.C51_finding_unused_slot"
   ],
   "note": ""
  },
  {
   "property": "C52",
   "status": "proved",
   "theorems": [
    "Rovio.C52_layout",
    "Rovio.C52_entries",
    "Rovio.C52_cov",
    "Rovio.C52_order"
   ],
   "note": ""
  },
  {
   "property": "C53",
   "status": "proved",
   "theorems": [
    "Rovio.State.C53_median",
    "Rovio.State.C53_own_camera",
    "Rovio.State.C53_other_camera",
    "Rovio.State.C53_finding_type",
    "Rovio.State.C53_finding_negative"
   ],
   "note": ""
  },
  {
   "property": "C54",
   "status": "proved",
   "theorems": [
    "Rovio.Node.C54_response",
    "Rovio.Node.C54_waiting",
    "Rovio.Node.C54_request",
    "Rovio.Node.C54_finding_ignored",
    "Rovio.Node.C54_finding_covariance"
   ],
   "note": ""
  },
  {
   "property": "C55",
   "status": "proved",
   "theorems": [
    "Rovio.Node.C55_complete",
    "Rovio.Node.C55_once",
    "Rovio.Node.C55_mono",
    "Rovio.Node.C55_stereo",
    "Rovio.Node.C55_finding_reset",
    "Rovio.Node.C55_finding_three"
   ],
   "note": ""
  },
  {
   "property": "C56",
   "status": "proved",
   "theorems": [
    "Rovio.Msg.C56_pcl",
    "Rovio.Msg.C56_patch",
    "Rovio.Msg.C56_finding_stale"
   ],
   "note": ""
  },
  {
   "property": "C57",
   "status": "proved",
   "theorems": [
    "Rovio.Rays.C57_bracket",
    "Rovio.Rays.C57_bracket_inverse",
    "Rovio.Rays.C57_finding_inverse",
    "Rovio.Rays.C57_segment",
    "Rovio.Rays.C57_finding_frame"
   ],
   "note": ""
  },
  {
   "property": "C58",
   "status": "proved",
   "theorems": [
    "Rovio.C58_single_source",
    "Rovio.C58_setExtrinsics_ignored",
    "Rovio.C58_setExtrinsics"
   ],
   "note": ""
  },
  {
   "property": "C59",
   "status": "proved",
   "theorems": [
    "Rovio.C59_gravity",
    "Rovio.C59_no_drift",
    "Rovio.C59_finding_position"
   ],
   "note": ""
  },
  {
   "property": "C60",
   "status": "proved",
   "theorems": [
    "Rovio.FC.C60_exact",
    "Rovio.FC.C60_least_squares",
    "Rovio.FC.C60_refuses"
   ],
   "note": ""
  },
  {
   "property": "C61",
   "status": "proved",
   "theorems": [
    "Rovio.FC.C61_tau"
   ],
   "note": ""
  },
  {
   "property": "C62",
   "status": "proved",
   "theorems": [
    "Rovio.FC.C62_axes",
    "Rovio.ImgFull.C62_predicted_pixel"
   ],
   "note": ""
  },
  {
   "property": "C63",
   "status": "proved",
   "theorems": [
    "Rovio.FeatSet.C63_average"
   ],
   "note": ""
  },
  {
   "property": "C64",
   "status": "proved",
   "theorems": [
    "Rovio.C64_corners"
   ],
   "note": ""
  },
  {
   "property": "C65",
   "status": "proved",
   "theorems": [
    "Rovio.C65_enable",
    "Rovio.C65_shape",
    "Rovio.Align.C65_weight_used"
   ],
   "note": ""
  },
  {
   "property": "C66",
   "status": "proved",
   "theorems": [
    "Rovio.Align.C66_gradient_row",
    "Rovio.Align.C66_gradient_bytes",
    "Rovio.Align.C66_finding_gradient_gain",
    "Rovio.C66_jacobian",
    "Rovio.C66_jacobian_plain",
    "Rovio.Align.C66_raw_gradient",
    "Rovio.Align.C66_gradient_weight"
   ],
   "note": ""
  },
  {
   "property": "C67",
   "status": "proved",
   "theorems": [
    "Rovio.C67_equations_defined",
    "Rovio.C67_equations_defined_unwarped",
    "Rovio.C67_align2D_defined",
    "Rovio.C67_adaptive_defined"
   ],
   "note": "With a warp the in-frame test converts corner positions to int, which has to be defined (hypothesis)."
  },
  {
   "property": "C68",
   "status": "proved",
   "theorems": [
    "Rovio.C68_reduced_same_problem",
    "Rovio.C68_rows"
   ],
   "note": "Eigen's QR contract (orthogonal Q, A P = Q R) is the hypothesis."
  },
  {
   "property": "C69",
   "status": "proved",
   "theorems": [
    "Rovio.Img.C69_refresh"
   ],
   "note": ""
  },
  {
   "property": "C70",
   "status": "proved",
   "theorems": [
    "Rovio.Img.C70_measurement",
    "Rovio.Img.C70_accept",
    "Rovio.ImgFull.C70_own_frame",
    "Rovio.ImgFull.C70_finding_image_size",
    "Rovio.ImgFull.C70_match"
   ],
   "note": ""
  },
  {
   "property": "C71",
   "status": "proved",
   "theorems": [
    "Rovio.C71_derivative",
    "Rovio.C71_jacobian",
    "Rovio.C71_same_camera",
    "Rovio.C71_warp",
    "Rovio.C71_finding_rotation_sign",
    "Rovio.C71_finding_warp_basis",
    "Rovio.C71_same_camera_warp",
    "Rovio.C71_finding_distance_row"
   ],
   "note": ""
  },
  {
   "property": "C72",
   "status": "proved",
   "theorems": [
    "Rovio.C72_recorded_pose"
   ],
   "note": ""
  },
  {
   "property": "C73",
   "status": "proved",
   "theorems": [
    "Rovio.C73_kinematics",
    "Rovio.C73_rest"
   ],
   "note": ""
  },
  {
   "property": "C74",
   "status": "proved",
   "theorems": [
    "Rovio.C74_warp_transport"
   ],
   "note": ""
  },
  {
   "property": "C75",
   "status": "proved",
   "theorems": [
    "Rovio.C75_pose",
    "Rovio.C75_twist",
    "Rovio.C75_extrinsics",
    "Rovio.C75_bias",
    "Rovio.C75_cov"
   ],
   "note": ""
  },
  {
   "property": "C76",
   "status": "proved",
   "theorems": [
    "Rovio.C76_readable",
    "Rovio.C76_jacobian",
    "Rovio.C76_published",
    "Rovio.C76_distance_variance",
    "Rovio.C76_cov",
    "Rovio.C76_landmark"
   ],
   "note": ""
  },
  {
   "property": "C77",
   "status": "proved",
   "theorems": [
    "Rovio.C77_valid",
    "Rovio.C77_update_reduces",
    "Rovio.C77_updates_succeed",
    "Rovio.ImgFull.C77_iterated",
    "Rovio.ImgFull.C77_poses",
    "Rovio.ImgFull.C77_poses_iterated",
    "Rovio.ImgFull.C77_from_pixels",
    "Rovio.ImgFull.C77_pixels"
   ],
   "note": "LWF's update P - K S K^T and prediction F P F^T + G Q G^T modelled as documented, over the reals. C77_pixels: the same for the whole filter from pixels, with the image update, its Kalman update, feature management and resets. C77_iterated: with the iterated update of the direct method. C77_poses and C77_poses_iterated: together with pose measurements, the noise of each of which is a covariance."
  },
  {
   "property": "C78",
   "status": "proved",
   "theorems": [
    "Rovio.C78_run_succeeds",
    "Rovio.ImgFull.C78_feature",
    "Rovio.ImgFull.C78_life_steps",
    "Rovio.ImgFull.C78_life_steps_iterated",
    "Rovio.ImgFull.C78_life",
    "Rovio.ImgFull.C78_life_zero_velocity",
    "Rovio.ImgFull.C78_life_zero_velocity_iterated"
   ],
   "note": "Over the reals; LWF's equations as documented. Image corrections and feature management are arbitrary functions satisfying the stated conditions. C78_life: the filter from pixels with measurements, poses, images and resets is processed to the end; C78_life_steps and C78_life_steps_iterated: between the inputs every filter step has a result, and C78_life_zero_velocity, C78_life_zero_velocity_iterated: so has the zero-velocity update at the end of an image. C78_feature: a single correction by a feature (the update with one candidate and one iteration), in any proper state, has a result once innovation and Jacobian could be formed from the image; the iterated one may be without result (singular candidate covariance), the feature then counts as failed."
  },
  {
   "property": "C79",
   "status": "proved",
   "theorems": [
    "Rovio.ImgFull.C79_callback_jacobian",
    "Rovio.ImgFull.C79_callback_direct",
    "Rovio.ImgFull.C79_callback_failure",
    "Rovio.C79_linearisation",
    "Rovio.C79_jacobian",
    "Rovio.C79_noise",
    "Rovio.C79_pixel_output",
    "Rovio.C79_pixel_covariance",
    "Rovio.C79_finding_behind",
    "Rovio.C79_direct_failure",
    "Rovio.C79_direct_jacobian"
   ],
   "note": "Over the reals. Points outside the claim: circle of the special-cased image centre (equidistant, double sphere), clamped inverse depth. The two exceptions are theorems (C79_linearisation, C71_finding_rotation_sign; C79_finding_behind)."
  },
  {
   "property": "C80",
   "status": "proved",
   "theorems": [
    "Rovio.C80_direct_full_patch"
   ],
   "note": "Over the reals; LWF's update equations and Eigen's QR contract as documented; isotropic intensity noise as configured by the code; outlier tests accept."
  },
  {
   "property": "C81",
   "status": "proved",
   "theorems": [
    "Rovio.ImgFull.C81_iterated",
    "Rovio.C81_prediction",
    "Rovio.C81_step",
    "Rovio.ImgFull.C81_pixels"
   ],
   "note": "Normalisation (kindr fix) as documented, over the reals. C81_pixels: the same for the whole filter from pixels, with the image update, its Kalman update, feature management and resets. C81_iterated: with the iterated update of the direct method. C77_poses and C77_poses_iterated say it together with pose measurements."
  },
  {
   "property": "C82",
   "status": "proved",
   "theorems": [
    "Rovio.C82_outcome",
    "Rovio.C82_prior",
    "Rovio.C82_stereo_exact",
    "Rovio.C82_finding_stereo_variance",
    "Rovio.C82_cov",
    "Rovio.C82_order"
   ],
   "note": "The search for the match in the other camera is a parameter; first order propagation of the variance; over the reals."
  },
  {
   "property": "C83",
   "status": "proved",
   "theorems": [
    "Rovio.C83_plumb_bob",
    "Rovio.C83_equidistant",
    "Rovio.C83_double_sphere",
    "Rovio.C83_accepted",
    "Rovio.C83_history",
    "Rovio.C83_finding_unknown_model",
    "Rovio.C83_uncalibrated",
    "Rovio.C83_default",
    "Rovio.C83_finding_stale_radius",
    "Rovio.C83_finding_skew",
    "Rovio.C83_refresh",
    "Rovio.C83_start"
   ],
   "note": "YAML parsing is the list of entries read; exceptions of yaml-cpp are an explicit failure; ds within the domain of the model."
  },
  {
   "property": "C84",
   "status": "proved",
   "theorems": [
    "Rovio.Tracker.C84_image",
    "Rovio.Tracker.C84_run",
    "Rovio.Tracker.C84_identity",
    "Rovio.Tracker.C84_finding_no_motion_model",
    "Rovio.Tracker.C84_finding_init_time"
   ],
   "note": "OpenCV's pyramid and corner detector, uninitialised memory and the linear solver are arbitrary parameters; drawing and the image conversion are not modelled; over the reals."
  },
  {
   "property": "C85",
   "status": "proved",
   "theorems": [
    "Rovio.Config.C85_registers",
    "Rovio.Config.C85_read",
    "Rovio.Config.C85_extrinsics",
    "Rovio.Config.C85_alignment",
    "Rovio.Config.C85_finding_later_poses",
    "Rovio.Config.C85_finding_not_unit"
   ],
   "note": "Property handlers are LWF's: a register maps variables to keys, reading assigns and fails on missing keys (assumed, see DESIGN.md). Scalar settings registered once under their own key are not listed."
  },
  {
   "property": "C86",
   "status": "proved",
   "theorems": [
    "Rovio.BagLoader.C86_replay",
    "Rovio.BagLoader.C86_records",
    "Rovio.BagLoader.C86_written_published",
    "Rovio.BagLoader.C86_requests",
    "Rovio.BagLoader.C86_trigger",
    "Rovio.BagLoader.C86_finding_pose_not_recorded",
    "Rovio.BagLoader.C86_finding_stale_record",
    "Rovio.BagLoader.C86_finding_first_not_recorded"
   ],
   "note": "LWF's updateSafe is an arbitrary function; C86_records assumes it never moves the estimate back in time. Time stamps of the records and file handling are not modelled."
  },
  {
   "property": "C87",
   "status": "proved",
   "theorems": [
    "Rovio.ImgFull.C87_noise_enters",
    "Rovio.ImgNoise.C87_noise",
    "Rovio.ImgNoise.C87_finding_gain_ignored"
   ],
   "note": "The covariance handed to the filter; its use by LWF is outside the repository."
  },
  {
   "property": "C88",
   "status": "proved",
   "theorems": [
    "Rovio.ImgPixel.C88_motion",
    "Rovio.ImgPixel.C88_match",
    "Rovio.ImgPixel.C88_innovation",
    "Rovio.ImgPixel.C88_outlierCheck",
    "Rovio.ImgPixel.C88_verdict",
    "Rovio.ImgPixel.C88_repatch",
    "Rovio.ImgPixel.C88_detect",
    "Rovio.ImgPixel.C88_stereo",
    "Rovio.ImgPixel.C88_finding_size_change",
    "Rovio.ImgPixel.C88_finding_overflow"
   ],
   "note": "Per call site, with the coordinates passed in arbitrary; bounds on pixels, warps and solver steps are hypotheses. Drawing code is not modelled."
  },
  {
   "property": "C89",
   "status": "proved",
   "theorems": [
    "Rovio.Publish.C89_transforms",
    "Rovio.Publish.C89_messages",
    "Rovio.Publish.C89_defined",
    "Rovio.Publish.C89_landmark",
    "Rovio.Publish.C89_increasing",
    "Rovio.Publish.C89_silent",
    "Rovio.Publish.C89_history",
    "Rovio.Publish.C89_finding_headers",
    "Rovio.Publish.C89_finding_bias_frame"
   ],
   "note": "The filter is an arbitrary function, assumed not to move the estimate back in time except at restarts. Different frame names are assumed; the default names are proved different."
  },
  {
   "property": "C90",
   "status": "proved",
   "theorems": [
    "Rovio.Draw.C90_draw",
    "Rovio.Draw.C90_sheet",
    "Rovio.Draw.C90_sheet_last",
    "Rovio.Draw.C90_texture",
    "Rovio.Draw.C90_tracker",
    "Rovio.Draw.C90_grey",
    "Rovio.Draw.C90_halfSample",
    "Rovio.Draw.C90_finding_magnification",
    "Rovio.Draw.C90_finding_texture"
   ],
   "note": "Canvases are contiguous, as created by the code. Text, rectangles and lines drawn by OpenCV are not modelled."
  },
  {
   "property": "C91",
   "status": "proved",
   "theorems": [
    "Rovio.Scene3D.C91_colour",
    "Rovio.Scene3D.C91_light",
    "Rovio.Scene3D.C91_projection",
    "Rovio.Scene3D.C91_depth",
    "Rovio.Scene3D.C91_culling",
    "Rovio.Scene3D.C91_default_proper",
    "Rovio.Scene3D.C91_objects",
    "Rovio.Scene3D.C91_points",
    "Rovio.Scene3D.C91_frame",
    "Rovio.Scene3D.C91_cubeMesh",
    "Rovio.Scene3D.C91_groundPlaneMesh",
    "Rovio.Scene3D.C91_groundPlane",
    "Rovio.Scene3D.C91_rectangle",
    "Rovio.Scene3D.C91_cube",
    "Rovio.Scene3D.C91_finding_cube_culled",
    "Rovio.Scene3D.C91_keys",
    "Rovio.Scene3D.C91_mouse",
    "Rovio.Scene3D.C91_setView",
    "Rovio.Scene3D.C91_keymap",
    "Rovio.Scene3D.C91_setYDown",
    "Rovio.Scene3D.C91_texture",
    "Rovio.Scene3D.C91_finding_texture_alignment",
    "Rovio.Scene3D.C91_finding_aspect"
   ],
   "note": "OpenGL is modelled by what its calls read and by its documented clip volume, culling rule and unpacking of rows; kindr's setFromVectors and Euler angles are parameters with their documented meaning. float is real."
  },
  {
   "property": "C92",
   "status": "proved",
   "theorems": [
    "Rovio.RovioScene.C92_draw",
    "Rovio.RovioScene.C92_sight",
    "Rovio.RovioScene.C92_state",
    "Rovio.RovioScene.C92_redraw",
    "Rovio.RovioScene.C92_ground",
    "Rovio.RovioScene.C92_depth",
    "Rovio.RovioScene.C92_finding_variance",
    "Rovio.RovioScene.C92_finding_far"
   ],
   "note": "Uses the models of the scene (C91), of patch drawing (C90) and of the coordinates (C08); the picture of a feature assumes an even patch size and a side that is a multiple of four pixels, as configured. float and double are real."
  },
  {
   "property": "C93",
   "status": "proved",
   "theorems": [
    "Rovio.Img.C93_reset",
    "Rovio.Img.C93_observer",
    "Rovio.Img.C93_forgets",
    "Rovio.Img.C93_finding_copy",
    "Rovio.Img.C93_finding_ids"
   ],
   "note": "For the filter state and the image update, in the model of C33-C37 and C69-C70.  The image processing functions are parameters assumed to look at the patches of existing features only.  LWF's reset copies the initial filter state (trusted, LWF is not in the repository)."
  },
  {
   "property": "C94",
   "status": "proved",
   "theorems": [
    "Rovio.ImgFull.C94_image",
    "Rovio.ImgFull.C94_run",
    "Rovio.ImgFull.C94_forgets",
    "Rovio.ImgFull.C94_finding_score"
   ],
   "note": "For the image update on actual images (all image accesses, alignment, innovation, Jacobian, outlier check, detection, initialisation).  LWF's filter update is an arbitrary function of the callbacks it is given, Eigen's solvers of their arguments, OpenCV's corners of the image.  The bearing left by a failed back-projection of a pixel is a fixed unknown function of the pixel, not of the memory; c_J_, which keeps an old value when the projection fails, is part of the state."
  },
  {
   "property": "C95",
   "status": "proved",
   "theorems": [
    "Rovio.C95_run",
    "Rovio.C95_outputs",
    "Rovio.C95_reset",
    "Rovio.C95_finding_horizontal_noise",
    "Rovio.ImgFull.C95_iterated",
    "Rovio.ImgFull.C95_pixels"
   ],
   "note": "Image processing, feature management and the zero velocity decision are arbitrary functions of everything but position and attitude (ImgUpdate.hpp reads these only to draw the horizon, line 1102). External pose measurements are excluded: they do refer to the world frame. Gravity is vertical (ImuPrediction.hpp:53, 59). C95_pixels drops the assumption about image processing: the whole filter from pixels, with the image update, its Kalman update, velocity updates and resets. C95_iterated: with the iterated update of the direct method, for logarithms of rotations along the axis (logTurns_axis)."
  },
  {
   "property": "C96",
   "status": "proved",
   "theorems": [
    "Rovio.ImgFull.C96_image",
    "Rovio.ImgFull.C96_run",
    "Rovio.ImgFull.C96_start",
    "Rovio.Node.C96_node"
   ],
   "note": "Over the reals: with doubles large stamps lose resolution. LWF's measurement time line is not in the repository: the node's calls and the filter's steps are proved separately. The order in which the set of new features is iterated (std::unordered_set) is any fixed function of the set that lists all its elements."
  },
  {
   "property": "C97",
   "status": "proved",
   "theorems": [
    "Rovio.ImgFull.C97_iterated",
    "Rovio.ImgFull.C97_pixels",
    "Rovio.C97_run",
    "Rovio.C97_estimates",
    "Rovio.C97_never_better"
   ],
   "note": "External pose measurements are excluded: they do observe position and heading. Image processing and feature management may look at the estimate and at all variances but those of position and attitude. C97_pixels: the same for the whole filter from pixels. C97_iterated: with the iterated update of the direct method."
  },
  {
   "property": "C98",
   "status": "proved",
   "theorems": [
    "Rovio.ImgFull.C98_image",
    "Rovio.ImgFull.C98_run",
    "Rovio.ImgFull.C98_finding_buckets"
   ],
   "note": "The iteration order is any function of the set. Finding: the order of the sets of candidates of equal rank does matter, it decides which candidate becomes a feature."
  },
  {
   "property": "C99",
   "status": "proved",
   "theorems": [
    "Rovio.ImgFull.C99_image",
    "Rovio.ImgFull.C99_run",
    "Rovio.ImgFull.C99_estimate",
    "Rovio.ImgFull.C99_pyramid",
    "Rovio.ImgFull.C99_finding_no_offset",
    "Rovio.ImgFull.C99_finding_gain"
   ],
   "note": "No grey value is cut off, and the corners OpenCV finds are assumed the same in both images. Findings: needs the intensity offset; a change of contrast does matter, even with the intensity sqew enabled."
  },
  {
   "property": "C100",
   "status": "proved",
   "theorems": [
    "Rovio.ImgFull.C100_image",
    "Rovio.ImgFull.C100_images"
   ],
   "note": "Single candidate and single iteration of the update (as in C77). Zero-velocity updates, which use the velocity, are off; C95_pixels and C97_pixels allow them. With a single correction; the iterated update is the exception (C107_finding_unseen)."
  },
  {
   "property": "C101",
   "status": "proved",
   "theorems": [
    "Rovio.C101_run",
    "Rovio.C101_outputs",
    "Rovio.C101_start"
   ],
   "note": "Assumes what the frame-independence needs of the configuration: one variance for the three position components of the pose noise, one for the three components of the estimated position of the frame, an outlier test of the whole innovation (LWF's Mahalanobis test, proved to qualify), and different additional poses for frame and body."
  },
  {
   "property": "C102",
   "status": "proved",
   "theorems": [
    "Rovio.ImgFull.C102_image",
    "Rovio.ImgFull.C102_blind",
    "Rovio.ImgFull.C102_life"
   ],
   "note": "Single candidate, single iteration of the Kalman update (as in Model/ImgEkf.lean). C102_blind needs the configuration that C20 needs (at least one bucket, penalties not negative) and identifiers below the counter, which C16 shows is always the case."
  },
  {
   "property": "C103",
   "status": "proved",
   "theorems": [
    "Rovio.C103_run",
    "Rovio.C103_same",
    "Rovio.C103_turned",
    "Rovio.C103_start",
    "Rovio.C103_finding_camera_rate"
   ],
   "note": "The image processing and feature management are arbitrary functions of the (physical) estimate, as in Model/Filter.lean. Finding: the covariance of the camera's rate output depends on the axes, because the gyroscope noise is added without turning it (C103_finding_camera_rate)."
  },
  {
   "property": "C104",
   "status": "proved",
   "theorems": [
    "Rovio.C104_found",
    "Rovio.C104_unmoved",
    "Rovio.C104_untextured",
    "Rovio.C104_adaptive"
   ],
   "note": "Exact arithmetic; the solver is an arbitrary function with the least-squares contract of Spec.SolvesLeastSquares. Even patch sizes (the alignment is only used with even ones; odd ones round the half size). C104_untextured shows that the texture condition is sharp."
  },
  {
   "property": "C105",
   "status": "proved",
   "theorems": [
    "Rovio.ImgFull.C105_pixels",
    "Rovio.C105_pose",
    "Rovio.C105_outputs",
    "Rovio.C105_finding_message"
   ],
   "note": "IMU, velocity, image and reset inputs in any order (C105_pixels); pose updates one at a time (C105_pose); outputs (C105_outputs). The covariance in the message of the mounting is the exception (C105_finding_message). With a single correction; the iterated update is the exception (C107_finding_unseen)."
  },
  {
   "property": "C106",
   "status": "proved",
   "theorems": [
    "Rovio.C106_step",
    "Rovio.C106_run",
    "Rovio.C106_outputs",
    "Rovio.C106_proper"
   ],
   "note": "About the filter of Model/Filter.lean: the image processing is any function of what is in use that gives corrections for features in use. C106_run speaks about pairs of runs that are both defined (an unused slot without a readable bearing makes a prediction undefined), C106_proper shows that proper filters are."
  },
  {
   "property": "C107",
   "status": "proved",
   "theorems": [
    "Rovio.ImgFull.C107_failure",
    "Rovio.ImgFull.C107_success",
    "Rovio.ImgFull.C107_covariance",
    "Rovio.ImgFull.C107_agreement",
    "Rovio.ImgFull.C107_check",
    "Rovio.ImgFull.C107_match",
    "Rovio.ImgFull.C107_finding_no_measurement",
    "Rovio.ImgFull.C107_finding_unseen"
   ],
   "note": "About LWF's iterated update as published (the submodule is empty) with the callbacks of the image update; for arbitrary callbacks unless they are named. C107_match: with a rejection threshold. The two findings are the exceptions in the statement."
  },
  {
   "property": "C108",
   "status": "proved",
   "theorems": [
    "Rovio.Ypr.C108_angles",
    "Rovio.Ypr.C108_unique",
    "Rovio.Ypr.C108_jacobian",
    "Rovio.Ypr.C108_finding_vertical"
   ],
   "note": "kindr's conversion from quaternions and its mapping from angular velocities to angle rates as documented, over the reals. The vertical axis is the exception (C108_finding_vertical)."
  },
  {
   "property": "C109",
   "status": "proved",
   "theorems": [
    "Rovio.C109_measurement",
    "Rovio.C109_measurements",
    "Rovio.C109_known",
    "Rovio.ImgFull.C109_image"
   ],
   "note": "For LWF's outlier test of a whole innovation (all updates of rovio have a single group of rows). C109_known holds for every outlier test. The bound is attained (example)."
  },
  {
   "property": "C110",
   "status": "proved",
   "theorems": [
    "Rovio.C110_rest",
    "Rovio.C110_unrelated",
    "Rovio.ImgFull.C110_image",
    "Rovio.ImgFull.C110_seen",
    "Rovio.ImgFull.C110_unmoved_image",
    "Rovio.ImgFull.C110_image_iterated",
    "Rovio.ImgFull.C110_life_iterated",
    "Rovio.ImgFull.C110_unmoved_life_iterated",
    "Rovio.ImgFull.C110_life",
    "Rovio.ImgFull.C110_unmoved_life",
    "Rovio.ImgFull.C110_life_poses",
    "Rovio.ImgFull.C110_life_poses_iterated",
    "Rovio.ImgFull.C110_life_constant_pose",
    "Rovio.ImgFull.C110_life_constant_pose_iterated"
   ],
   "note": "C110_rest for a filter whose frames are aligned already (the first pose of an aligning pose update moves the frames, see C44). C110_unrelated for every update except that first pose, accepted or rejected. C110_image for matched coordinates and for the direct method; C110_seen and C110_unmoved_image say what this means for the pixels with the direct method and a plain or decreasing gradient weighting, given that the QR decomposition (Eigen) reduces equations without error to equations without error. Equality is over the reals. C110_life and C110_unmoved_life: the filter with pixels (single candidate and iteration per feature and image, no resets); cameras give every pixel a direction; that the patches were taken from images is a hypothesis on the states in which images arrive. C110_image_iterated, C110_life_iterated and C110_unmoved_life_iterated: the same with the iterated update of the direct method, any number of iterations and a single starting point (alignMaxUniSample zero), given that the logarithms of the libraries give no difference between equal elements. C110_life_poses and C110_life_poses_iterated: with measured poses in between, for frames that are aligned already or never. C110_life_constant_pose and C110_life_constant_pose_iterated: for frames that are aligned by the first of the poses; a step without result (a singular matrix) leaves everything as it is."
  },
  {
   "property": "C111",
   "status": "proved",
   "theorems": [
    "Rovio.Overlay.C111_horizon",
    "Rovio.Overlay.C111_finding_steep",
    "Rovio.Overlay.C111_ellipse"
   ],
   "note": "The numbers handed to OpenCV; what cv::ellipse2Poly, cv::fillPoly and cv::ellipse make of them is trusted. Finding: undefined beyond 60 degrees of elevation (C111_finding_steep)."
  },
  {
   "property": "C112",
   "status": "proved",
   "theorems": [
    "Rovio.SharedImages.C112_images_independent",
    "Rovio.SharedImages.C112_finding_copy_constructed"
   ],
   "note": "OpenCV's memory management as documented. How LWF stores measurements is not part of the repository: assigning is safe, copy constructing is not (C112_finding_copy_constructed)."
  },
  {
   "property": "C113",
   "status": "proved",
   "theorems": [
    "Rovio.SlotMemory.C113_undefined_iff",
    "Rovio.SlotMemory.C113_pointers_live",
    "Rovio.SlotMemory.C113_no_leak",
    "Rovio.SlotMemory.C113_ready",
    "Rovio.SlotMemory.C113_finding_copy_constructed",
    "Rovio.SlotMemory.C113_finding_assign_unallocated"
   ],
   "note": "Addresses only; objects linked from outside are assumed to outlive the slot, as the elements of the state of the same filter state do."
  },
  {
   "property": "C114",
   "status": "proved",
   "theorems": [
    "Rovio.Outline.C114_outline",
    "Rovio.Outline.C114_nothing",
    "Rovio.Outline.C114_first_order",
    "Rovio.Outline.C114_covers",
    "Rovio.Outline.C114_finding_behind"
   ],
   "note": "The segments handed to cv::line; clipping and rounding are OpenCV's. To first order the outline is the parallelogram of C114_covers (C114_first_order); the outline itself is the projection of the bearings. Finding: corners behind the camera (C114_finding_behind)."
  },
  {
   "property": "C115",
   "status": "proved",
   "theorems": [
    "Rovio.Annot.C115_note",
    "Rovio.Annot.C115_finding_label",
    "Rovio.Annot.C115_sheet",
    "Rovio.Annot.C115_agree"
   ],
   "note": "Colours, labels and frames; cv::rectangle is taken to colour the rim of the rectangle, the number written into the first column of the sheet is left out. What LWF leaves behind (success, convergence, outlier, distance) is arbitrary. Finding: the label for a large intensity error is given for other reasons as well (C115_finding_label)."
  }
 ]
}