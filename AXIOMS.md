# Axioms of the property theorems

Generated by `tools/axioms.py` from `#print axioms`.

| theorem | axioms |
|---|---|
| Rovio.Distance.C01_new | propext, Classical.choice, Quot.sound |
| Rovio.Distance.C01_roundtrip | propext, Classical.choice, Quot.sound |
| Rovio.Distance.C01_inverse_clips | propext, Classical.choice, Quot.sound |
| Rovio.Distance.C01_inverse_bounded | propext, Classical.choice, Quot.sound |
| Rovio.Distance.C01_log_nonpos | propext, Classical.choice, Quot.sound |
| Rovio.Distance.C02_distance_derivative | propext, Classical.choice, Quot.sound |
| Rovio.Distance.C02_reciprocal | propext, Classical.choice, Quot.sound |
| Rovio.Distance.C02_parameter_derivative | propext, Classical.choice, Quot.sound |
| Rovio.Distance.C02_combined_derivative | propext, Classical.choice, Quot.sound |
| Rovio.Distance.C02_clamped_derivative_wrong | propext, Classical.choice, Quot.sound |
| Rovio.Distance.C03_conversion | propext, Classical.choice, Quot.sound |
| Rovio.Distance.C03_there_and_back | propext, Classical.choice, Quot.sound |
| Rovio.Distance.C03_set_type | propext, Classical.choice, Quot.sound |
| Rovio.Distance.C03_setType_does_not_convert | propext, Classical.choice, Quot.sound |
| Rovio.Stat.C04_count_is_log_count | propext, Classical.choice, Quot.sound |
| Rovio.Stat.C04_counts_partition | propext, Classical.choice, Quot.sound |
| Rovio.Stat.C04_window_is_log_window | propext, Classical.choice, Quot.sound |
| Rovio.Stat.C04_window_partition | propext, Classical.choice, Quot.sound |
| Rovio.Stat.C04_window_needs_incremental | propext, Classical.choice, Quot.sound |
| Rovio.Stat.C04_camera_selection | propext, Classical.choice, Quot.sound |
| Rovio.Stat.C04_tracked_frames | propext, Classical.choice, Quot.sound |
| Rovio.Stat.C05_qualities_in_unit_interval | propext, Classical.choice, Quot.sound |
| Rovio.Stat.C05_needs_positive_range | propext, Classical.choice, Quot.sound |
| Rovio.Stat.C06_getters_preview | propext, Classical.choice, Quot.sound |
| Rovio.Stat.C06_readback | propext, Classical.choice, Quot.sound |
| Rovio.Stat.C06_exponential | propext, Classical.choice, Quot.sound |
| Rovio.Stat.C07_acceptance | propext, Classical.choice, Quot.sound |
| Rovio.Stat.C07_antitone | propext, Classical.choice, Quot.sound |
| Rovio.Stat.C07_extremes | propext, Classical.choice, Quot.sound |
| Rovio.FC.C08_set_nor | propext, Classical.choice, Quot.sound |
| Rovio.FC.C08_set_c | propext, Classical.choice, Quot.sound |
| Rovio.FC.C08_set_c_roundtrip | propext, Classical.choice, Quot.sound |
| Rovio.FC.C08_finding_getJ_overwrites | propext, Classical.choice, Quot.sound |
| Rovio.C09_camera_is_wf | propext, Classical.choice, Quot.sound |
| Rovio.FC.C09_in_front_has_pixel | propext, Classical.choice, Quot.sound |
| Rovio.FC.C09_pixel_iff_in_front | propext, Classical.choice, Quot.sound |
| Rovio.FC.C09_needs_camera | propext, Classical.choice, Quot.sound |
| Rovio.FC.C10_near_identity | propext, Classical.choice, Quot.sound |
| Rovio.FC.C10_finding_flag_without_warp | propext, Classical.choice, Quot.sound |
| Rovio.FC.C11_warps_agree | propext, Classical.choice, Quot.sound |
| Rovio.FC.C11_get_warp_c | propext, Classical.choice, Quot.sound |
| Rovio.FC.C11_get_warp_nor | propext, Classical.choice, Quot.sound |
| Rovio.FC.C11_finding_boxPlus_stale | propext, Classical.choice, Quot.sound |
| Rovio.Camera.C12_succeeds_iff | propext, Classical.choice, Quot.sound |
| Rovio.Camera.C12_ray_only | propext, Classical.choice, Quot.sound |
| Rovio.Camera.C12_not_both | propext, Classical.choice, Quot.sound |
| Rovio.Camera.C12_overload_same_pixel | propext, Classical.choice, Quot.sound |
| Rovio.Camera.C12_overload_same_pixel_bearing | propext, Classical.choice, Quot.sound |
| Rovio.Camera.C12_principal_point | propext, Classical.choice, Quot.sound |
| Rovio.Camera.C13_distort | propext, Classical.choice, Quot.sound |
| Rovio.Camera.C13_bearingToPixel | propext, Classical.choice, Quot.sound |
| Rovio.Camera.C13_bearing_increment | propext, Classical.choice, Quot.sound |
| Rovio.Camera.C14_success | propext, Classical.choice, Quot.sound |
| Rovio.Camera.C14_undistorted_roundtrip | propext, Classical.choice, Quot.sound |
| Rovio.Camera.C14_undistorted_roundtrip' | propext, Classical.choice, Quot.sound |
| Rovio.Camera.C14_finding_nonfinite_success | propext, Classical.choice, Quot.sound |
| Rovio.Camera.C15_equidist_radial | propext, Classical.choice, Quot.sound |
| Rovio.Camera.C15_doubleSphere_radial | propext, Classical.choice, Quot.sound |
| Rovio.Camera.C15_doubleSphere_den_pos | propext, Classical.choice, Quot.sound |
| Rovio.Camera.C15_azimuth | propext, Classical.choice, Quot.sound |
| Rovio.Camera.C15_equidist_injective | propext, Classical.choice, Quot.sound |
| Rovio.Camera.C15_finding_ds_centre_limit | propext, Classical.choice, Quot.sound |
| Rovio.Camera.C15_finding_ds_not_injective | propext, Classical.choice, Quot.sound |
| Rovio.FeatSet.C16_make | propext, Classical.choice, Quot.sound |
| Rovio.FeatSet.C16_never_reused | propext, Classical.choice, Quot.sound |
| Rovio.FeatSet.C16_unique | propext, Classical.choice, Quot.sound |
| Rovio.AddArgs.C17_effect | propext, Classical.choice, Quot.sound |
| Rovio.AddArgs.C17_threshold | propext, Classical.choice, Quot.sound |
| Rovio.AddArgs.C17_requireMax | propext, Classical.choice, Quot.sound |
| Rovio.AddArgs.C18_spacing | propext, Classical.choice, Quot.sound |
| Rovio.AddArgs.C18_finding_requireMax_ignores_penalty | propext, Classical.choice, Quot.sound |
| Rovio.AddArgs.C19_greedy | propext, Classical.choice, Quot.sound |
| Rovio.AddArgs.C20_safe | propext, Classical.choice, Quot.sound |
| Rovio.AddArgs.C20_fill_in_bounds | propext, Classical.choice, Quot.sound |
| Rovio.AddArgs.C20_finding_negative_penalty | propext, Classical.choice, Quot.sound |
| Rovio.AddArgs.C20_finding_new_full | propext, Classical.choice, Quot.sound |
| Rovio.AddArgs.C20_new_safe | propext, Classical.choice, Quot.sound |
| Rovio.C21_defined | propext, Classical.choice, Quot.sound |
| Rovio.C21_range | propext, Classical.choice, Quot.sound |
| Rovio.C21_halving | propext, Classical.choice, Quot.sound |
| Rovio.C21_size | propext, Classical.choice, Quot.sound |
| Rovio.C21_monotone | propext, Classical.choice, Quot.sound |
| Rovio.C21_constant | propext, Classical.choice, Quot.sound |
| Rovio.C22_compose | propext, Classical.choice, Quot.sound |
| Rovio.C22_roundtrip | propext, Classical.choice, Quot.sound |
| Rovio.C22_defined | propext, Classical.choice, Quot.sound |
| Rovio.C22_finding_warp_lost | propext, Classical.choice, Quot.sound |
| Rovio.C23_block_mean | propext, Classical.choice, Quot.sound |
| Rovio.C23_block_centre | propext, Classical.choice, Quot.sound |
| Rovio.C23_finding_odd_sizes | propext, Classical.choice, Quot.sound |
| Rovio.C23_opencv_centre | propext, Classical.choice, Quot.sound |
| Rovio.C23_finding_opencv_odd | propext, Classical.choice, Quot.sound |
| Rovio.C24_in_bounds | propext, Classical.choice, Quot.sound |
| Rovio.C24_exact_plain | propext, Classical.choice, Quot.sound |
| Rovio.C25_coarsest_decides | propext, Classical.choice, Quot.sound |
| Rovio.C25_finding_opencv_odd | propext, Classical.choice, Quot.sound |
| Rovio.C26_between | propext, Classical.choice, Quot.sound |
| Rovio.C26_integer | propext, Classical.choice, Quot.sound |
| Rovio.C26_affine | propext, Classical.choice, Quot.sound |
| Rovio.C26_inner | propext, Classical.choice, Quot.sound |
| Rovio.C27_score | propext, Classical.choice, Quot.sound |
| Rovio.C27_zero_iff_flat | propext, Classical.choice, Quot.sound |
| Rovio.C27_finding_stale_border | propext, Classical.choice, Quot.sound |
| Rovio.C27_multilevel | propext, Classical.choice, Quot.sound |
| Rovio.C27_specific_level | propext, Classical.choice, Quot.sound |
| Rovio.C28_symmetric | propext, Classical.choice, Quot.sound |
| Rovio.C28_triangle | propext, Classical.choice, Quot.sound |
| Rovio.C28_zero_iff | propext, Classical.choice, Quot.sound |
| Rovio.C28_offset_invariant | propext, Classical.choice, Quot.sound |
| Rovio.C28_value | propext, Classical.choice, Quot.sound |
| Rovio.C29_small_untouched | propext, Classical.choice, Quot.sound |
| Rovio.C29_loss | propext, Classical.choice, Quot.sound |
| Rovio.C29_monotone | propext, Classical.choice, Quot.sound |
| Rovio.C29_jacobian | propext, Classical.choice, Quot.sound |
| Rovio.C29_weighted | propext, Classical.choice, Quot.sound |
| Rovio.C30_offset_invariant | propext, Classical.choice, Quot.sound |
| Rovio.C30_affine_zero | propext, Classical.choice, Quot.sound |
| Rovio.C30_flat_reference | propext, Classical.choice, Quot.sound |
| Rovio.C30_least_squares | propext, Classical.choice, Quot.sound |
| Rovio.C30_finding_gain_without_offset | propext, Classical.choice, Quot.sound |
| Rovio.C31_align2D | propext, Classical.choice, Quot.sound |
| Rovio.C31_no_iterations | propext, Classical.choice, Quot.sound |
| Rovio.C31_levels | propext, Classical.choice, Quot.sound |
| Rovio.C31_single_level | propext, Classical.choice, Quot.sound |
| Rovio.C31_composed | propext, Classical.choice, Quot.sound |
| Rovio.Align.C32_finding_default_level | propext, Classical.choice, Quot.sound |
| Rovio.C32_best_seed | propext, Classical.choice, Quot.sound |
| Rovio.C32_simple_case | propext, Classical.choice, Quot.sound |
| Rovio.C32_coverage | propext, Classical.choice, Quot.sound |
| Rovio.Img.C33_each_pair_once | propext, Classical.choice, Quot.sound |
| Rovio.Img.C34_advance_once | propext, Classical.choice, Quot.sound |
| Rovio.Img.C34_finding_removed_before_visit | propext, Classical.choice, Quot.sound |
| Rovio.Img.C34_update_status | propext, Classical.choice, Quot.sound |
| Rovio.Img.C35_forced_removal | propext, Classical.choice, Quot.sound |
| Rovio.Img.C35_finding_factor_at_most_one | propext, Classical.choice, Quot.sound |
| Rovio.Img.C35_finding_share_above_one | propext, Classical.choice, Quot.sound |
| Rovio.Img.C35_finding_counted_before_removal | propext, Classical.choice, Quot.sound |
| Rovio.Img.C35_image_update_total | propext, Classical.choice, Quot.sound |
| Rovio.Img.C36_threshold | propext, Classical.choice, Quot.sound |
| Rovio.Img.C36_budget | propext, Classical.choice, Quot.sound |
| Rovio.Img.C36_last_camera | propext, Classical.choice, Quot.sound |
| Rovio.Img.C36_all_cameras | propext, Classical.choice, Quot.sound |
| Rovio.Img.C37_nonpositive_removed | propext, Classical.choice, Quot.sound |
| Rovio.Img.C37_disabled | propext, Classical.choice, Quot.sound |
| Rovio.Img.C37_after_image | propext, Classical.choice, Quot.sound |
| Rovio.ImgFull.C38_inputs | propext, Classical.choice, Quot.sound |
| Rovio.ImgFull.C38_imu | propext, Classical.choice, Quot.sound |
| Rovio.Img.C38_gate | propext, Classical.choice, Quot.sound |
| Rovio.Img.C38_timers | propext, Classical.choice, Quot.sound |
| Rovio.Img.C38_motion | propext, Classical.choice, Quot.sound |
| Rovio.Img.C39_enumeration | propext, Classical.choice, Quot.sound |
| Rovio.Img.C39_grid | propext, Classical.choice, Quot.sound |
| Rovio.Img.C39_centre | propext, Classical.choice, Quot.sound |
| Rovio.Img.C39_ellipse | propext, Classical.choice, Quot.sound |
| Rovio.Img.C39_shift | propext, Classical.choice, Quot.sound |
| Rovio.MultiCamera.C40_same_point | propext, Classical.choice, Quot.sound |
| Rovio.MultiCamera.C40_distance | propext, Classical.choice, Quot.sound |
| Rovio.MultiCamera.C40_there_and_back | propext, Classical.choice, Quot.sound |
| Rovio.MultiCamera.C40_via_third | propext, Classical.choice, Quot.sound |
| Rovio.MultiCamera.C40_parametrisation | propext, Classical.choice, Quot.sound |
| Rovio.MultiCamera.C40_warp | propext, Classical.choice, Quot.sound |
| Rovio.C41_landmark | propext, Classical.choice, Quot.sound |
| Rovio.C41_camera_independent | propext, Classical.choice, Quot.sound |
| Rovio.C41_derivative | propext, Classical.choice, Quot.sound |
| Rovio.C41_jacobian | propext, Classical.choice, Quot.sound |
| Rovio.C41_finding_second_camera | propext, Classical.choice, Quot.sound |
| Rovio.C42_finding_rate_covariance | propext, Classical.choice, Quot.sound |
| Rovio.C42_pose | propext, Classical.choice, Quot.sound |
| Rovio.C42_rigid | propext, Classical.choice, Quot.sound |
| Rovio.C42_imu_jacobian | propext, Classical.choice, Quot.sound |
| Rovio.C42_camera_derivative | propext, Classical.choice, Quot.sound |
| Rovio.C42_camera_jacobian | propext, Classical.choice, Quot.sound |
| Rovio.C42_finding_second_camera | propext, Classical.choice, Quot.sound |
| Rovio.C42_rate_covariance | propext, Classical.choice, Quot.sound |
| Rovio.C43_messages | propext, Classical.choice, Quot.sound |
| Rovio.C43_roundtrip | propext, Classical.choice, Quot.sound |
| Rovio.ImgFull.C44_first_absorbed | propext, Classical.choice, Quot.sound |
| Rovio.ImgFull.C44_life | propext, Classical.choice, Quot.sound |
| Rovio.ImgFull.C44_life_aligned | propext, Classical.choice, Quot.sound |
| Rovio.C44_first_innovation | propext, Classical.choice, Quot.sound |
| Rovio.C44_once | propext, Classical.choice, Quot.sound |
| Rovio.C44_disabled | propext, Classical.choice, Quot.sound |
| Rovio.C44_finding_reset | propext, Classical.choice, Quot.sound |
| Rovio.C45_jacobian | propext, Classical.choice, Quot.sound |
| Rovio.C45_finding_same_index | propext, Classical.choice, Quot.sound |
| Rovio.C46_columns | propext, Classical.choice, Quot.sound |
| Rovio.C46_noninterference | propext, Classical.choice, Quot.sound |
| Rovio.C47_configured | propext, Classical.choice, Quot.sound |
| Rovio.C47_uniform | propext, Classical.choice, Quot.sound |
| Rovio.C47_blocks | propext, Classical.choice, Quot.sound |
| Rovio.C47_finding_not_symmetric | propext, Classical.choice, Quot.sound |
| Rovio.C48_zero | propext, Classical.choice, Quot.sound |
| Rovio.C48_jacobian | propext, Classical.choice, Quot.sound |
| Rovio.C49_no_measurement | propext, Classical.choice, Quot.sound |
| Rovio.C49_run | propext, Classical.choice, Quot.sound |
| Rovio.C49_finding_not_in_place | propext, Classical.choice, Quot.sound |
| Rovio.C50_static_landmark | propext, Classical.choice, Quot.sound |
| Rovio.C51_state | propext, Classical.choice, Quot.sound |
| Rovio.C51_noise | propext, Classical.choice, Quot.sound |
| Rovio.C51_finding_extrinsic_noise | propext, Classical.choice, Quot.sound |
| Rovio.C51_finding_unused_slot | propext, Classical.choice, Quot.sound |
| Rovio.C52_layout | propext, Quot.sound |
| Rovio.C52_entries | propext, Classical.choice, Quot.sound |
| Rovio.C52_cov | propext, Classical.choice, Quot.sound |
| Rovio.C52_order | propext, Classical.choice, Quot.sound |
| Rovio.State.C53_median | propext, Classical.choice, Quot.sound |
| Rovio.State.C53_own_camera | propext, Classical.choice, Quot.sound |
| Rovio.State.C53_other_camera | propext, Classical.choice, Quot.sound |
| Rovio.State.C53_finding_type | propext, Classical.choice, Quot.sound |
| Rovio.State.C53_finding_negative | propext, Classical.choice, Quot.sound |
| Rovio.Node.C54_response | propext, Classical.choice, Quot.sound |
| Rovio.Node.C54_waiting | propext, Classical.choice, Quot.sound |
| Rovio.Node.C54_request | propext, Classical.choice, Quot.sound |
| Rovio.Node.C54_finding_ignored | propext, Classical.choice, Quot.sound |
| Rovio.Node.C54_finding_covariance | propext, Classical.choice, Quot.sound |
| Rovio.Node.C55_complete | propext, Classical.choice, Quot.sound |
| Rovio.Node.C55_once | propext, Classical.choice, Quot.sound |
| Rovio.Node.C55_mono | propext, Classical.choice, Quot.sound |
| Rovio.Node.C55_stereo | propext, Classical.choice, Quot.sound |
| Rovio.Node.C55_finding_reset | propext, Classical.choice, Quot.sound |
| Rovio.Node.C55_finding_three | propext, Classical.choice, Quot.sound |
| Rovio.Msg.C56_pcl | propext, Classical.choice, Quot.sound |
| Rovio.Msg.C56_patch | propext, Classical.choice, Quot.sound |
| Rovio.Msg.C56_finding_stale | propext, Classical.choice, Quot.sound |
| Rovio.Rays.C57_bracket | propext, Classical.choice, Quot.sound |
| Rovio.Rays.C57_bracket_inverse | propext, Classical.choice, Quot.sound |
| Rovio.Rays.C57_finding_inverse | propext, Classical.choice, Quot.sound |
| Rovio.Rays.C57_segment | propext, Classical.choice, Quot.sound |
| Rovio.Rays.C57_finding_frame | propext, Classical.choice, Quot.sound |
| Rovio.C58_single_source | propext, Classical.choice, Quot.sound |
| Rovio.C58_setExtrinsics_ignored | propext, Classical.choice, Quot.sound |
| Rovio.C58_setExtrinsics | propext, Classical.choice, Quot.sound |
| Rovio.C59_gravity | propext, Classical.choice, Quot.sound |
| Rovio.C59_no_drift | propext, Classical.choice, Quot.sound |
| Rovio.C59_finding_position | propext, Classical.choice, Quot.sound |
| Rovio.FC.C60_exact | propext, Classical.choice, Quot.sound |
| Rovio.FC.C60_least_squares | propext, Classical.choice, Quot.sound |
| Rovio.FC.C60_refuses | propext, Classical.choice, Quot.sound |
| Rovio.FC.C61_tau | propext, Classical.choice, Quot.sound |
| Rovio.FC.C62_axes | propext, Classical.choice, Quot.sound |
| Rovio.ImgFull.C62_predicted_pixel | propext, Classical.choice, Quot.sound |
| Rovio.FeatSet.C63_average | propext, Classical.choice, Quot.sound |
| Rovio.C64_corners | propext, Classical.choice, Quot.sound |
| Rovio.C65_enable | propext, Classical.choice, Quot.sound |
| Rovio.C65_shape | propext, Classical.choice, Quot.sound |
| Rovio.Align.C65_weight_used | propext, Classical.choice, Quot.sound |
| Rovio.Align.C66_gradient_row | propext, Classical.choice, Quot.sound |
| Rovio.Align.C66_gradient_bytes | propext, Classical.choice, Quot.sound |
| Rovio.Align.C66_finding_gradient_gain | propext, Classical.choice, Quot.sound |
| Rovio.C66_jacobian | propext, Classical.choice, Quot.sound |
| Rovio.C66_jacobian_plain | propext, Classical.choice, Quot.sound |
| Rovio.Align.C66_raw_gradient | propext, Classical.choice, Quot.sound |
| Rovio.Align.C66_gradient_weight | propext, Classical.choice, Quot.sound |
| Rovio.C67_equations_defined | propext, Classical.choice, Quot.sound |
| Rovio.C67_equations_defined_unwarped | propext, Classical.choice, Quot.sound |
| Rovio.C67_align2D_defined | propext, Classical.choice, Quot.sound |
| Rovio.C67_adaptive_defined | propext, Classical.choice, Quot.sound |
| Rovio.C68_reduced_same_problem | propext, Classical.choice, Quot.sound |
| Rovio.C68_rows | propext, Classical.choice, Quot.sound |
| Rovio.Img.C69_refresh | propext, Classical.choice, Quot.sound |
| Rovio.Img.C70_measurement | propext, Classical.choice, Quot.sound |
| Rovio.Img.C70_accept | propext, Classical.choice, Quot.sound |
| Rovio.ImgFull.C70_own_frame | propext, Classical.choice, Quot.sound |
| Rovio.ImgFull.C70_finding_image_size | propext, Classical.choice, Quot.sound |
| Rovio.ImgFull.C70_match | propext, Classical.choice, Quot.sound |
| Rovio.C71_derivative | propext, Classical.choice, Quot.sound |
| Rovio.C71_jacobian | propext, Classical.choice, Quot.sound |
| Rovio.C71_same_camera | propext, Classical.choice, Quot.sound |
| Rovio.C71_warp | propext, Classical.choice, Quot.sound |
| Rovio.C71_finding_rotation_sign | propext, Classical.choice, Quot.sound |
| Rovio.C71_finding_warp_basis | propext, Classical.choice, Quot.sound |
| Rovio.C71_same_camera_warp | propext, Classical.choice, Quot.sound |
| Rovio.C71_finding_distance_row | propext, Classical.choice, Quot.sound |
| Rovio.C72_recorded_pose | propext, Classical.choice, Quot.sound |
| Rovio.C73_kinematics | propext, Classical.choice, Quot.sound |
| Rovio.C73_rest | propext, Classical.choice, Quot.sound |
| Rovio.C74_warp_transport | propext, Classical.choice, Quot.sound |
| Rovio.C75_pose | propext, Classical.choice, Quot.sound |
| Rovio.C75_twist | propext, Classical.choice, Quot.sound |
| Rovio.C75_extrinsics | propext, Classical.choice, Quot.sound |
| Rovio.C75_bias | propext, Classical.choice, Quot.sound |
| Rovio.C75_cov | propext, Classical.choice, Quot.sound |
| Rovio.C76_readable | propext, Classical.choice, Quot.sound |
| Rovio.C76_jacobian | propext, Classical.choice, Quot.sound |
| Rovio.C76_published | propext, Classical.choice, Quot.sound |
| Rovio.C76_distance_variance | propext, Classical.choice, Quot.sound |
| Rovio.C76_cov | propext, Classical.choice, Quot.sound |
| Rovio.C76_landmark | propext, Classical.choice, Quot.sound |
| Rovio.C77_valid | propext, Classical.choice, Quot.sound |
| Rovio.C77_update_reduces | propext, Classical.choice, Quot.sound |
| Rovio.C77_updates_succeed | propext, Classical.choice, Quot.sound |
| Rovio.ImgFull.C77_iterated | propext, Classical.choice, Quot.sound |
| Rovio.ImgFull.C77_poses | propext, Classical.choice, Quot.sound |
| Rovio.ImgFull.C77_poses_iterated | propext, Classical.choice, Quot.sound |
| Rovio.ImgFull.C77_from_pixels | propext, Classical.choice, Quot.sound |
| Rovio.ImgFull.C77_pixels | propext, Classical.choice, Quot.sound |
| Rovio.C78_run_succeeds | propext, Classical.choice, Quot.sound |
| Rovio.ImgFull.C78_feature | propext, Classical.choice, Quot.sound |
| Rovio.ImgFull.C78_life_steps | propext, Classical.choice, Quot.sound |
| Rovio.ImgFull.C78_life_steps_iterated | propext, Classical.choice, Quot.sound |
| Rovio.ImgFull.C78_life | propext, Classical.choice, Quot.sound |
| Rovio.ImgFull.C78_life_zero_velocity | propext, Classical.choice, Quot.sound |
| Rovio.ImgFull.C78_life_zero_velocity_iterated | propext, Classical.choice, Quot.sound |
| Rovio.ImgFull.C79_callback_jacobian | propext, Classical.choice, Quot.sound |
| Rovio.ImgFull.C79_callback_direct | propext, Classical.choice, Quot.sound |
| Rovio.ImgFull.C79_callback_failure | propext, Classical.choice, Quot.sound |
| Rovio.C79_linearisation | propext, Classical.choice, Quot.sound |
| Rovio.C79_jacobian | propext, Classical.choice, Quot.sound |
| Rovio.C79_noise | propext, Classical.choice, Quot.sound |
| Rovio.C79_pixel_output | propext, Classical.choice, Quot.sound |
| Rovio.C79_pixel_covariance | propext, Classical.choice, Quot.sound |
| Rovio.C79_finding_behind | propext, Classical.choice, Quot.sound |
| Rovio.C79_direct_failure | propext, Classical.choice, Quot.sound |
| Rovio.C79_direct_jacobian | propext, Classical.choice, Quot.sound |
| Rovio.C80_direct_full_patch | propext, Classical.choice, Quot.sound |
| Rovio.ImgFull.C81_iterated | propext, Classical.choice, Quot.sound |
| Rovio.C81_prediction | propext, Classical.choice, Quot.sound |
| Rovio.C81_step | propext, Classical.choice, Quot.sound |
| Rovio.ImgFull.C81_pixels | propext, Classical.choice, Quot.sound |
| Rovio.C82_outcome | propext, Classical.choice, Quot.sound |
| Rovio.C82_prior | propext, Classical.choice, Quot.sound |
| Rovio.C82_stereo_exact | propext, Classical.choice, Quot.sound |
| Rovio.C82_finding_stereo_variance | propext, Classical.choice, Quot.sound |
| Rovio.C82_cov | propext, Classical.choice, Quot.sound |
| Rovio.C82_order | propext, Classical.choice, Quot.sound |
| Rovio.C83_plumb_bob | propext, Classical.choice, Quot.sound |
| Rovio.C83_equidistant | propext, Classical.choice, Quot.sound |
| Rovio.C83_double_sphere | propext, Classical.choice, Quot.sound |
| Rovio.C83_accepted | propext, Classical.choice, Quot.sound |
| Rovio.C83_history | propext, Classical.choice, Quot.sound |
| Rovio.C83_finding_unknown_model | propext, Classical.choice, Quot.sound |
| Rovio.C83_uncalibrated | propext, Classical.choice, Quot.sound |
| Rovio.C83_default | propext, Classical.choice, Quot.sound |
| Rovio.C83_finding_stale_radius | propext, Classical.choice, Quot.sound |
| Rovio.C83_finding_skew | propext, Classical.choice, Quot.sound |
| Rovio.C83_refresh | propext, Classical.choice, Quot.sound |
| Rovio.C83_start | propext, Classical.choice, Quot.sound |
| Rovio.Tracker.C84_image | propext, Classical.choice, Quot.sound |
| Rovio.Tracker.C84_run | propext, Classical.choice, Quot.sound |
| Rovio.Tracker.C84_identity | propext, Classical.choice, Quot.sound |
| Rovio.Tracker.C84_finding_no_motion_model | propext, Classical.choice, Quot.sound |
| Rovio.Tracker.C84_finding_init_time | propext, Classical.choice, Quot.sound |
| Rovio.Config.C85_registers | propext, Classical.choice, Quot.sound |
| Rovio.Config.C85_read | propext, Classical.choice, Quot.sound |
| Rovio.Config.C85_extrinsics | propext, Classical.choice, Quot.sound |
| Rovio.Config.C85_alignment | propext, Classical.choice, Quot.sound |
| Rovio.Config.C85_finding_later_poses | propext, Classical.choice, Quot.sound |
| Rovio.Config.C85_finding_not_unit | propext, Classical.choice, Quot.sound |
| Rovio.BagLoader.C86_replay | propext, Classical.choice, Quot.sound |
| Rovio.BagLoader.C86_records | propext, Classical.choice, Quot.sound |
| Rovio.BagLoader.C86_written_published | propext, Classical.choice, Quot.sound |
| Rovio.BagLoader.C86_requests | propext, Classical.choice, Quot.sound |
| Rovio.BagLoader.C86_trigger | propext, Classical.choice, Quot.sound |
| Rovio.BagLoader.C86_finding_pose_not_recorded | propext, Classical.choice, Quot.sound |
| Rovio.BagLoader.C86_finding_stale_record | propext, Classical.choice, Quot.sound |
| Rovio.BagLoader.C86_finding_first_not_recorded | propext, Classical.choice, Quot.sound |
| Rovio.ImgFull.C87_noise_enters | propext, Classical.choice, Quot.sound |
| Rovio.ImgNoise.C87_noise | propext, Classical.choice, Quot.sound |
| Rovio.ImgNoise.C87_finding_gain_ignored | propext, Classical.choice, Quot.sound |
| Rovio.ImgPixel.C88_motion | propext, Classical.choice, Quot.sound |
| Rovio.ImgPixel.C88_match | propext, Classical.choice, Quot.sound |
| Rovio.ImgPixel.C88_innovation | propext, Classical.choice, Quot.sound |
| Rovio.ImgPixel.C88_outlierCheck | propext, Classical.choice, Quot.sound |
| Rovio.ImgPixel.C88_verdict | propext, Classical.choice, Quot.sound |
| Rovio.ImgPixel.C88_repatch | propext, Classical.choice, Quot.sound |
| Rovio.ImgPixel.C88_detect | propext, Classical.choice, Quot.sound |
| Rovio.ImgPixel.C88_stereo | propext, Classical.choice, Quot.sound |
| Rovio.ImgPixel.C88_finding_size_change | propext, Classical.choice, Quot.sound |
| Rovio.ImgPixel.C88_finding_overflow | propext, Classical.choice, Quot.sound |
| Rovio.Publish.C89_transforms | propext, Classical.choice, Quot.sound |
| Rovio.Publish.C89_messages | propext, Classical.choice, Quot.sound |
| Rovio.Publish.C89_defined | propext, Classical.choice, Quot.sound |
| Rovio.Publish.C89_landmark | propext, Classical.choice, Quot.sound |
| Rovio.Publish.C89_increasing | propext, Classical.choice, Quot.sound |
| Rovio.Publish.C89_silent | propext, Classical.choice, Quot.sound |
| Rovio.Publish.C89_history | propext, Classical.choice, Quot.sound |
| Rovio.Publish.C89_finding_headers | propext, Classical.choice, Quot.sound |
| Rovio.Publish.C89_finding_bias_frame | propext, Classical.choice, Quot.sound |
| Rovio.Draw.C90_draw | propext, Classical.choice, Quot.sound |
| Rovio.Draw.C90_sheet | propext, Classical.choice, Quot.sound |
| Rovio.Draw.C90_sheet_last | propext, Classical.choice, Quot.sound |
| Rovio.Draw.C90_texture | propext, Classical.choice, Quot.sound |
| Rovio.Draw.C90_tracker | propext, Classical.choice, Quot.sound |
| Rovio.Draw.C90_grey | propext, Classical.choice, Quot.sound |
| Rovio.Draw.C90_halfSample | propext, Quot.sound |
| Rovio.Draw.C90_finding_magnification | propext, Classical.choice, Quot.sound |
| Rovio.Draw.C90_finding_texture | propext, Classical.choice, Quot.sound |
| Rovio.Scene3D.C91_colour | propext, Classical.choice, Quot.sound |
| Rovio.Scene3D.C91_light | propext, Classical.choice, Quot.sound |
| Rovio.Scene3D.C91_projection | propext, Classical.choice, Quot.sound |
| Rovio.Scene3D.C91_depth | propext, Classical.choice, Quot.sound |
| Rovio.Scene3D.C91_culling | propext, Classical.choice, Quot.sound |
| Rovio.Scene3D.C91_default_proper | propext, Classical.choice, Quot.sound |
| Rovio.Scene3D.C91_objects | propext, Classical.choice, Quot.sound |
| Rovio.Scene3D.C91_points | propext, Classical.choice, Quot.sound |
| Rovio.Scene3D.C91_frame | propext, Classical.choice, Quot.sound |
| Rovio.Scene3D.C91_cubeMesh | propext, Classical.choice, Quot.sound |
| Rovio.Scene3D.C91_groundPlaneMesh | propext, Classical.choice, Quot.sound |
| Rovio.Scene3D.C91_groundPlane | propext, Classical.choice, Quot.sound |
| Rovio.Scene3D.C91_rectangle | propext, Classical.choice, Quot.sound |
| Rovio.Scene3D.C91_cube | propext, Classical.choice, Quot.sound |
| Rovio.Scene3D.C91_finding_cube_culled | propext, Classical.choice, Quot.sound |
| Rovio.Scene3D.C91_keys | propext, Classical.choice, Quot.sound |
| Rovio.Scene3D.C91_mouse | propext, Classical.choice, Quot.sound |
| Rovio.Scene3D.C91_setView | propext, Classical.choice, Quot.sound |
| Rovio.Scene3D.C91_keymap | propext |
| Rovio.Scene3D.C91_setYDown | propext, Classical.choice, Quot.sound |
| Rovio.Scene3D.C91_texture | propext, Classical.choice, Quot.sound |
| Rovio.Scene3D.C91_finding_texture_alignment | propext, Classical.choice, Quot.sound |
| Rovio.Scene3D.C91_finding_aspect | propext, Classical.choice, Quot.sound |
| Rovio.RovioScene.C92_draw | propext, Classical.choice, Quot.sound |
| Rovio.RovioScene.C92_sight | propext, Classical.choice, Quot.sound |
| Rovio.RovioScene.C92_state | propext, Classical.choice, Quot.sound |
| Rovio.RovioScene.C92_redraw | propext, Classical.choice, Quot.sound |
| Rovio.RovioScene.C92_ground | propext, Classical.choice, Quot.sound |
| Rovio.RovioScene.C92_depth | propext, Classical.choice, Quot.sound |
| Rovio.RovioScene.C92_finding_variance | propext, Classical.choice, Quot.sound |
| Rovio.RovioScene.C92_finding_far | propext, Classical.choice, Quot.sound |
| Rovio.Img.C93_reset | propext, Classical.choice, Quot.sound |
| Rovio.Img.C93_observer | propext, Classical.choice, Quot.sound |
| Rovio.Img.C93_forgets | propext, Classical.choice, Quot.sound |
| Rovio.Img.C93_finding_copy | propext, Classical.choice, Quot.sound |
| Rovio.Img.C93_finding_ids | propext, Classical.choice, Quot.sound |
| Rovio.ImgFull.C94_image | propext, Classical.choice, Quot.sound |
| Rovio.ImgFull.C94_run | propext, Classical.choice, Quot.sound |
| Rovio.ImgFull.C94_forgets | propext, Classical.choice, Quot.sound |
| Rovio.ImgFull.C94_finding_score | propext, Classical.choice, Quot.sound |
| Rovio.C95_run | propext, Classical.choice, Quot.sound |
| Rovio.C95_outputs | propext, Classical.choice, Quot.sound |
| Rovio.C95_reset | propext, Classical.choice, Quot.sound |
| Rovio.C95_finding_horizontal_noise | propext, Classical.choice, Quot.sound |
| Rovio.ImgFull.C95_iterated | propext, Classical.choice, Quot.sound |
| Rovio.ImgFull.C95_pixels | propext, Classical.choice, Quot.sound |
| Rovio.ImgFull.C96_image | propext, Classical.choice, Quot.sound |
| Rovio.ImgFull.C96_run | propext, Classical.choice, Quot.sound |
| Rovio.ImgFull.C96_start | propext, Classical.choice, Quot.sound |
| Rovio.Node.C96_node | propext, Classical.choice, Quot.sound |
| Rovio.ImgFull.C97_iterated | propext, Classical.choice, Quot.sound |
| Rovio.ImgFull.C97_pixels | propext, Classical.choice, Quot.sound |
| Rovio.C97_run | propext, Classical.choice, Quot.sound |
| Rovio.C97_estimates | propext, Classical.choice, Quot.sound |
| Rovio.C97_never_better | propext, Classical.choice, Quot.sound |
| Rovio.ImgFull.C98_image | propext, Classical.choice, Quot.sound |
| Rovio.ImgFull.C98_run | propext, Classical.choice, Quot.sound |
| Rovio.ImgFull.C98_finding_buckets | propext, Classical.choice, Quot.sound |
| Rovio.ImgFull.C99_image | propext, Classical.choice, Quot.sound |
| Rovio.ImgFull.C99_run | propext, Classical.choice, Quot.sound |
| Rovio.ImgFull.C99_estimate | propext, Classical.choice, Quot.sound |
| Rovio.ImgFull.C99_pyramid | propext, Classical.choice, Quot.sound |
| Rovio.ImgFull.C99_finding_no_offset | propext, Classical.choice, Quot.sound |
| Rovio.ImgFull.C99_finding_gain | propext, Classical.choice, Quot.sound |
| Rovio.ImgFull.C100_image | propext, Classical.choice, Quot.sound |
| Rovio.ImgFull.C100_images | propext, Classical.choice, Quot.sound |
| Rovio.C101_run | propext, Classical.choice, Quot.sound |
| Rovio.C101_outputs | propext, Classical.choice, Quot.sound |
| Rovio.C101_start | propext, Classical.choice, Quot.sound |
| Rovio.ImgFull.C102_image | propext, Classical.choice, Quot.sound |
| Rovio.ImgFull.C102_blind | propext, Classical.choice, Quot.sound |
| Rovio.ImgFull.C102_life | propext, Classical.choice, Quot.sound |
| Rovio.C103_run | propext, Classical.choice, Quot.sound |
| Rovio.C103_same | propext, Classical.choice, Quot.sound |
| Rovio.C103_turned | propext, Classical.choice, Quot.sound |
| Rovio.C103_start | propext, Classical.choice, Quot.sound |
| Rovio.C103_finding_camera_rate | propext, Classical.choice, Quot.sound |
| Rovio.C104_found | propext, Classical.choice, Quot.sound |
| Rovio.C104_unmoved | propext, Classical.choice, Quot.sound |
| Rovio.C104_untextured | propext, Classical.choice, Quot.sound |
| Rovio.C104_adaptive | propext, Classical.choice, Quot.sound |
| Rovio.ImgFull.C105_pixels | propext, Classical.choice, Quot.sound |
| Rovio.C105_pose | propext, Classical.choice, Quot.sound |
| Rovio.C105_outputs | propext, Classical.choice, Quot.sound |
| Rovio.C105_finding_message | propext, Classical.choice, Quot.sound |
| Rovio.C106_step | propext, Classical.choice, Quot.sound |
| Rovio.C106_run | propext, Classical.choice, Quot.sound |
| Rovio.C106_outputs | propext, Classical.choice, Quot.sound |
| Rovio.C106_proper | propext, Classical.choice, Quot.sound |
| Rovio.ImgFull.C107_failure | propext, Classical.choice, Quot.sound |
| Rovio.ImgFull.C107_success | propext, Classical.choice, Quot.sound |
| Rovio.ImgFull.C107_covariance | propext, Classical.choice, Quot.sound |
| Rovio.ImgFull.C107_agreement | propext, Classical.choice, Quot.sound |
| Rovio.ImgFull.C107_check | propext, Classical.choice, Quot.sound |
| Rovio.ImgFull.C107_match | propext, Classical.choice, Quot.sound |
| Rovio.ImgFull.C107_finding_no_measurement | propext, Classical.choice, Quot.sound |
| Rovio.ImgFull.C107_finding_unseen | propext, Classical.choice, Quot.sound |
| Rovio.Ypr.C108_angles | propext, Classical.choice, Quot.sound |
| Rovio.Ypr.C108_unique | propext, Classical.choice, Quot.sound |
| Rovio.Ypr.C108_jacobian | propext, Classical.choice, Quot.sound |
| Rovio.Ypr.C108_finding_vertical | propext, Classical.choice, Quot.sound |
| Rovio.C109_measurement | propext, Classical.choice, Quot.sound |
| Rovio.C109_measurements | propext, Classical.choice, Quot.sound |
| Rovio.C109_known | propext, Classical.choice, Quot.sound |
| Rovio.ImgFull.C109_image | propext, Classical.choice, Quot.sound |
| Rovio.C110_rest | propext, Classical.choice, Quot.sound |
| Rovio.C110_unrelated | propext, Classical.choice, Quot.sound |
| Rovio.ImgFull.C110_image | propext, Classical.choice, Quot.sound |
| Rovio.ImgFull.C110_seen | propext, Classical.choice, Quot.sound |
| Rovio.ImgFull.C110_unmoved_image | propext, Classical.choice, Quot.sound |
| Rovio.ImgFull.C110_image_iterated | propext, Classical.choice, Quot.sound |
| Rovio.ImgFull.C110_life_iterated | propext, Classical.choice, Quot.sound |
| Rovio.ImgFull.C110_unmoved_life_iterated | propext, Classical.choice, Quot.sound |
| Rovio.ImgFull.C110_life | propext, Classical.choice, Quot.sound |
| Rovio.ImgFull.C110_unmoved_life | propext, Classical.choice, Quot.sound |
| Rovio.ImgFull.C110_life_poses | propext, Classical.choice, Quot.sound |
| Rovio.ImgFull.C110_life_poses_iterated | propext, Classical.choice, Quot.sound |
| Rovio.ImgFull.C110_life_constant_pose | propext, Classical.choice, Quot.sound |
| Rovio.ImgFull.C110_life_constant_pose_iterated | propext, Classical.choice, Quot.sound |
| Rovio.Overlay.C111_horizon | propext, Classical.choice, Quot.sound |
| Rovio.Overlay.C111_finding_steep | propext, Classical.choice, Quot.sound |
| Rovio.Overlay.C111_ellipse | propext, Classical.choice, Quot.sound |
| Rovio.SharedImages.C112_images_independent | propext, Classical.choice, Quot.sound |
| Rovio.SharedImages.C112_finding_copy_constructed | propext, Classical.choice, Quot.sound |
| Rovio.SlotMemory.C113_undefined_iff | propext, Quot.sound |
| Rovio.SlotMemory.C113_pointers_live | propext, Quot.sound |
| Rovio.SlotMemory.C113_no_leak | propext, Quot.sound |
| Rovio.SlotMemory.C113_ready | propext, Classical.choice, Quot.sound |
| Rovio.SlotMemory.C113_finding_copy_constructed | propext, Classical.choice, Quot.sound |
| Rovio.SlotMemory.C113_finding_assign_unallocated | propext, Quot.sound |
| Rovio.Outline.C114_outline | propext, Classical.choice, Quot.sound |
| Rovio.Outline.C114_nothing | propext, Classical.choice, Quot.sound |
| Rovio.Outline.C114_first_order | propext, Classical.choice, Quot.sound |
| Rovio.Outline.C114_covers | propext, Classical.choice, Quot.sound |
| Rovio.Outline.C114_finding_behind | propext, Classical.choice, Quot.sound |
| Rovio.Annot.C115_note | propext, Classical.choice, Quot.sound |
| Rovio.Annot.C115_finding_label | propext, Classical.choice, Quot.sound |
| Rovio.Annot.C115_sheet | propext, Classical.choice, Quot.sound |
| Rovio.Annot.C115_agree | propext, Classical.choice, Quot.sound |
