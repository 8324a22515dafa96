# Axioms of the property theorems (generated by tools/axioms.py)

| theorem | axioms |
|---|---|
| `Verif.Codec.C01_pack_short` | propext, Quot.sound |
| `Verif.Codec.C01_pack_contract` | propext, Classical.choice, Quot.sound |
| `Verif.Codec.C02_pack_layout` | propext, Classical.choice, Quot.sound |
| `Verif.Codec.C02_pack_layout_wrap` | propext, Classical.choice, Quot.sound |
| `Verif.Codec.C03_roundtrip` | propext, Classical.choice, Quot.sound |
| `Verif.Codec.C03_roundtrip_wrap` | propext, Classical.choice, Quot.sound |
| `Verif.Codec.C03_repack` | propext, Classical.choice, Quot.sound |
| `Verif.Codec.C04_unpack` | propext, Classical.choice, Quot.sound |
| `Verif.Codec.C04_unpack_prefix` | propext, Classical.choice, Quot.sound |
| `Verif.Codec.C04_unpack_needs_two_bytes` | propext, Quot.sound |
| `Verif.Codec.C05_pack_ub_iff` | propext, Classical.choice, Quot.sound |
| `Verif.Codec.C05_pack_negative_dec_ub` | propext, Classical.choice, Quot.sound |
| `Verif.NexStar.C06_fixed_reply` | propext, Classical.choice, Quot.sound |
| `Verif.NexStar.C06_unknown` | propext, Classical.choice, Quot.sound |
| `Verif.NexStar.C06_state_unchanged` | propext, Classical.choice, Quot.sound |
| `Verif.NexStar.C06_unambiguous` | propext, Classical.choice, Quot.sound |
| `Verif.NexStar.C07_response` | propext, Classical.choice, Quot.sound |
| `Verif.NexStar.C07_reply_length` | propext, Classical.choice, Quot.sound |
| `Verif.NexStar.C07_nineteen_needed` | propext, Classical.choice, Quot.sound |
| `Verif.NexStar.C08_reads_only_request` | propext, Classical.choice, Quot.sound |
| `Verif.NexStar.C08_depends_on_prefix` | propext, Classical.choice, Quot.sound |
| `Verif.NexStar.C08_arduino_unknown_oob` | propext, Classical.choice, Quot.sound |
| `Verif.NexStar.C08_memory_safe` | propext, Classical.choice, Quot.sound |
| `Verif.NexStar.C09_position_reply` | propext, Classical.choice, Quot.sound |
| `Verif.NexStar.C09_domain` | propext, Classical.choice, Quot.sound |
| `Verif.NexStar.C09_negative_dec_ub` | propext, Classical.choice, Quot.sound |
| `Verif.NexStar.C10_sync_decodes` | propext, Classical.choice, Quot.sound |
| `Verif.NexStar.C10_round_trip` | propext, Classical.choice, Quot.sound |
| `Verif.NexStar.C10_south_pole` | propext, Classical.choice, Quot.sound |
| `Verif.NexStar.C10_garbage_accepted` | propext, Classical.choice, Quot.sound |
| `Verif.Main.C11_J_bluetooth` | propext, Classical.choice, Quot.sound |
| `Verif.Main.C11_flag` | propext, Classical.choice, Quot.sound |
| `Verif.Main.C11_one_byte_sync` | propext, Classical.choice, Quot.sound |
| `Verif.NexStar.C12_location` | propext, Classical.choice, Quot.sound |
| `Verif.NexStar.C12_south_west_ub` | propext, Classical.choice, Quot.sound |
| `Verif.NexStar.C12_south_west_wrong` | propext, Classical.choice, Quot.sound |
| `Verif.NexStar.C12_south_wrong` | propext, Classical.choice, Quot.sound |
| `Verif.NexStar.C13_time` | propext, Classical.choice, Quot.sound |
| `Verif.NexStar.C13_after_rmc` | propext, Classical.choice, Quot.sound |
| `Verif.Nmea.C14_accept_iff` | propext, Classical.choice, Quot.sound |
| `Verif.Nmea.C14_reject` | propext, Classical.choice, Quot.sound |
| `Verif.Nmea.C14_built_accepted` | propext, Classical.choice, Quot.sound |
| `Verif.Nmea.C14_corrupt_rejected` | propext, Classical.choice, Quot.sound |
| `Verif.Nmea.C14_single_byte` | propext, Classical.choice, Quot.sound |
| `Verif.Nmea.C14_signed_high_rejected` | propext, Classical.choice, Quot.sound |
| `Verif.Nmea.C14_star_before_dollar` | propext, Classical.choice, Quot.sound |
| `Verif.Nmea.C15_rmc` | propext, Classical.choice, Quot.sound |
| `Verif.Nmea.C15_gga` | propext, Classical.choice, Quot.sound |
| `Verif.Nmea.C15_gsv` | propext, Quot.sound |
| `Verif.Nmea.C15_nmea` | propext, Classical.choice, Quot.sound |
| `Verif.Nmea.C15_buffer` | propext, Classical.choice, Quot.sound |
| `Verif.Nmea.C16_rmc` | propext, Classical.choice, Quot.sound |
| `Verif.Nmea.C16_second_sixty` | propext, Classical.choice, Quot.sound |
| `Verif.Nmea.C17_rmc_no_fix` | propext, Classical.choice, Quot.sound |
| `Verif.Nmea.C17_flags_contradict_position` | propext, Classical.choice, Quot.sound |
| `Verif.Nmea.C17_gga_no_fix` | propext, Classical.choice, Quot.sound |
| `Verif.Nmea.C17_no_fix_keeps_position` | propext, Classical.choice, Quot.sound |
| `Verif.Nmea.C18_gga` | propext, Classical.choice, Quot.sound |
| `Verif.Nmea.C19_gsv` | propext, Classical.choice, Quot.sound |
| `Verif.Nmea.C20_lines` | propext, Classical.choice, Quot.sound |
| `Verif.Nmea.C20_leading_fragment` | propext, Classical.choice, Quot.sound |
| `Verif.Nmea.C21_terminates` | propext, Classical.choice, Quot.sound |
| `Verif.Nmea.C21_effects` | propext, Classical.choice, Quot.sound |
| `Verif.Nmea.C21_junk_lines_bypass_checksum` | propext, Classical.choice, Quot.sound |
| `Verif.Nmea.C22_no_oob_read` | propext, Classical.choice, Quot.sound |
| `Verif.Nmea.C22_missing_star` | propext, Quot.sound |
| `Verif.Nmea.C22_short_sentence_oob` | propext, Classical.choice, Quot.sound |
| `Verif.Nmea.C22_short_gsv_reads_checksum` | propext, Classical.choice, Quot.sound |
| `Verif.Nmea.C22_buffer_no_oob_read` | propext, Classical.choice, Quot.sound |
| `Verif.Helper.C23_fmod_range` | propext, Classical.choice, Quot.sound |
| `Verif.Helper.C23_fmod_unique` | propext, Classical.choice, Quot.sound |
| `Verif.Helper.C23_fmod_id` | propext, Classical.choice, Quot.sound |
| `Verif.Helper.C23_fmod_periodic` | propext, Classical.choice, Quot.sound |
| `Verif.Helper.C23_fmod_ieee_reaches_modulus` | propext, Classical.choice, Quot.sound |
| `Verif.Helper.C24_julianDay_next` | propext, Classical.choice, Quot.sound |
| `Verif.Helper.C24_julianDay_epoch` | propext, Classical.choice, Quot.sound |
| `Verif.Helper.C24_julianDay_steps` | propext, Classical.choice, Quot.sound |
| `Verif.Helper.C24_julianDay_count` | propext, Classical.choice, Quot.sound |
| `Verif.Helper.C25_lst` | propext, Classical.choice, Quot.sound |
| `Verif.Helper.C25_lst_longitude` | propext, Classical.choice, Quot.sound |
| `Verif.Helper.C25_lst_next_day` | propext, Classical.choice, Quot.sound |
| `Verif.Helper.C26_checkbits` | propext, Quot.sound |
| `Verif.Helper.C26_upper_bits_ignored` | propext, Quot.sound |
| `Verif.Helper.C26_detects` | propext, Quot.sound |
| `Verif.Helper.C26_detects_single` | propext, Quot.sound |
| `Verif.Helper.C26_undetected_iff` | propext, Classical.choice, Quot.sound |
| `Verif.Main.C27_step` | propext, Classical.choice, Quot.sound |
| `Verif.Main.C27_range` | propext, Classical.choice, Quot.sound |
| `Verif.Main.C27_bad_frames` | propext, Classical.choice, Quot.sound |
| `Verif.Main.C27_exact_contraction` | propext, Classical.choice, Quot.sound |
| `Verif.Main.C27_converges` | propext, Classical.choice, Quot.sound |
| `Verif.Main.C27_scaling` | propext, Classical.choice, Quot.sound |
| `Verif.Main.C27_long_way` | propext, Classical.choice, Quot.sound |
| `Verif.Coord.C28_roundtrip` | propext, Classical.choice, Quot.sound |
| `Verif.Coord.C28_zenith` | propext, Classical.choice, Quot.sound |
| `Verif.Coord.C29_roundtrip` | propext, Classical.choice, Quot.sound |
| `Verif.Coord.C30_same_direction` | propext, Classical.choice, Quot.sound |
| `Verif.Coord.C30_ranges` | propext, Classical.choice, Quot.sound |
| `Verif.Coord.C30_turns_h2e` | propext, Classical.choice, Quot.sound |
| `Verif.Coord.C30_turns_e2h` | propext, Classical.choice, Quot.sound |
| `Verif.Coord.C30_rotation_e2h` | propext, Classical.choice, Quot.sound |
| `Verif.Coord.C30_rotation_h2e` | propext, Classical.choice, Quot.sound |
| `Verif.Align.C31_duplicate_rejected` | propext, Classical.choice, Quot.sound |
| `Verif.Align.C31_new_accepted` | propext, Classical.choice, Quot.sound |
| `Verif.Align.C31_distinct` | propext, Classical.choice, Quot.sound |
| `Verif.Align.C32_overflow_keeps_triangles` | propext, Classical.choice, Quot.sound |
| `Verif.Align.C32_capacity` | propext, Classical.choice, Quot.sound |
| `Verif.Align.C32_modulo` | propext, Classical.choice, Quot.sound |
| `Verif.Align.C33_faithful` | propext, Classical.choice, Quot.sound |
| `Verif.Align.C33_wrap` | propext, Classical.choice, Quot.sound |
| `Verif.Align.C33_drift` | propext, Classical.choice, Quot.sound |
| `Verif.Align.C34_translation` | propext, Classical.choice, Quot.sound |
| `Verif.Align.C35_similarity` | propext, Classical.choice, Quot.sound |
| `Verif.Align.C35_two_points` | propext, Classical.choice, Quot.sound |
| `Verif.Align.C35_collinear` | propext, Classical.choice, Quot.sound |
| `Verif.Align.C36_affine` | propext, Classical.choice, Quot.sound |
| `Verif.Align.C36_interpolates` | propext, Classical.choice, Quot.sound |
| `Verif.Telescope.C37_nexstar` | propext, Classical.choice, Quot.sound |
| `Verif.Telescope.C37_one_star` | propext, Classical.choice, Quot.sound |
| `Verif.Telescope.C37_two_stars` | propext, Classical.choice, Quot.sound |
| `Verif.Telescope.C37_corner` | propext, Classical.choice, Quot.sound |
| `Verif.Telescope.C37_three_stars` | propext, Classical.choice, Quot.sound |
| `Verif.Telescope.C37_uncalibrated` | propext, Classical.choice, Quot.sound |
| `Verif.Telescope.C37_resync_ignored` | propext, Classical.choice, Quot.sound |
| `Verif.Telescope.C37_collinear_third_ignored` | propext, Classical.choice, Quot.sound |
| `Verif.Telescope.C37_tolerance_wrong_triangle` | propext, Classical.choice, Quot.sound |
| `Verif.Telescope.C37_many_stars` | propext, Classical.choice, Quot.sound |
| `Verif.Linalg.C38_invert_exact` | propext, Classical.choice, Quot.sound |
| `Verif.Linalg.C38_invert_false_iff` | propext, Classical.choice, Quot.sound |
| `Verif.Linalg.C38_singular_accepted` | propext, Classical.choice, Quot.sound |
| `Verif.Linalg.C38_no_zero_divisor` | propext, Classical.choice, Quot.sound |
| `Verif.Linalg.C38_products` | propext, Classical.choice, Quot.sound |
| `Verif.Align.C39_type_matches` | propext, Classical.choice, Quot.sound |
| `Verif.Align.C40_identity` | propext, Quot.sound |
| `Verif.Align.C40_like_new` | propext, Classical.choice, Quot.sound |
| `Verif.Align.C41_indices` | propext, Classical.choice, Quot.sound |
| `Verif.Align.C41_reads_safe` | propext, Classical.choice, Quot.sound |
| `Verif.Align.C42_succeeds` | propext, Classical.choice, Quot.sound |
| `Verif.Align.C42_delaunay` | propext, Classical.choice, Quot.sound |
| `Verif.Align.C42_disjoint` | propext, Classical.choice, Quot.sound |
| `Verif.Align.C42_count` | propext, Classical.choice, Quot.sound |
| `Verif.Align.C42_star_is_corner` | propext, Classical.choice, Quot.sound |
| `Verif.Align.C42_complete` | propext, Classical.choice, Quot.sound |
| `Verif.Align.C42_history` | propext, Classical.choice, Quot.sound |
| `Verif.Align.C42_star_has_own_triangle` | propext, Classical.choice, Quot.sound |
| `Verif.Align.C42_flat_triple_dropped` | propext, Classical.choice, Quot.sound |
| `Verif.Telescope.C42_sync_succeeds` | propext, Classical.choice, Quot.sound |
| `Verif.Telescope.C42_history_succeeds` | propext, Classical.choice, Quot.sound |
| `Verif.Align.C43_indeterminate` | propext, Classical.choice, Quot.sound |
| `Verif.Align.C43_harmless` | propext, Classical.choice, Quot.sound |
| `Verif.Align.C44_nearest` | propext, Classical.choice, Quot.sound |
| `Verif.Align.C45_exact_accepts` | propext, Classical.choice, Quot.sound |
| `Verif.Align.C45_exact_iff` | propext, Classical.choice, Quot.sound |
| `Verif.Align.C45_exact_rejects` | propext, Classical.choice, Quot.sound |
| `Verif.Align.C45_float_accepts` | propext, Classical.choice, Quot.sound |
| `Verif.Align.C45_float_rejects_inside` | propext, Classical.choice, Quot.sound |
| `Verif.Main.C46_choice` | propext, Quot.sound |
| `Verif.Main.C46_spacing` | propext, Classical.choice, Quot.sound |
| `Verif.Main.C46_latency` | propext, Classical.choice, Quot.sound |
| `Verif.Main.C46_latency_20ms` | propext, Classical.choice, Quot.sound |
| `Verif.Main.C46_starvation` | propext, Quot.sound |
| `Verif.Main.C47_watchdog` | propext, Classical.choice, Quot.sound |
| `Verif.Main.C48_pattern` | propext, Classical.choice, Quot.sound |
| `Verif.Main.C48_flash_missed` | propext, Classical.choice, Quot.sound |
| `Verif.Main.C48_wrap_glitch` | propext |
| `Verif.Main.C48_led_shows_state` | propext, Classical.choice, Quot.sound |
| `Verif.Net.C49_never_displaced` | propext, Quot.sound |
| `Verif.Net.C49_accepts` | propext, Quot.sound |
| `Verif.Net.C49_rejects` | propext, Quot.sound |
| `Verif.Main.C50_goto` | propext, Classical.choice, Quot.sound |
| `Verif.Main.C50_stale_echo` | propext, Classical.choice, Quot.sound |
| `Verif.Main.C50_bluetooth_independent` | propext, Classical.choice, Quot.sound |
| `Verif.Main.C50_failed_read_repeats` | propext, Classical.choice, Quot.sound |
| `Verif.Main.C50_length_74` | propext, Classical.choice, Quot.sound |
| `Verif.Main.C51_only_then` | propext, Classical.choice, Quot.sound |
| `Verif.Main.C51_never_again` | propext, Classical.choice, Quot.sound |
| `Verif.Main.C51_sent` | propext, Classical.choice, Quot.sound |
| `Verif.Main.C52_reset` | propext, Classical.choice, Quot.sound |
| `Verif.Main.C52_ignored` | propext, Classical.choice, Quot.sound |
| `Verif.Main.C52_no_feedback` | propext, Classical.choice, Quot.sound |
| `Verif.Main.C52_step` | propext, Classical.choice, Quot.sound |
| `Verif.Main.C53_out_of_bounds` | propext, Classical.choice, Quot.sound |
| `Verif.Main.C53_in_bounds` | propext, Classical.choice, Quot.sound |
| `Verif.Main.C53_broker_overread` | propext, Classical.choice, Quot.sound |
| `Verif.Main.C53_content` | propext, Classical.choice, Quot.sound |
| `Verif.Main.C53_22_points` | propext, Classical.choice, Quot.sound |
| `Verif.Main.C53_trailing_comma` | propext, Classical.choice, Quot.sound |
| `Verif.Main.C53_history` | propext, Classical.choice, Quot.sound |
| `Verif.Persist.C54_write` | propext, Classical.choice, Quot.sound |
| `Verif.Persist.C54_roundtrip` | propext, Classical.choice, Quot.sound |
| `Verif.Persist.C54_read` | propext, Classical.choice, Quot.sound |
| `Verif.Persist.C54_frame` | propext, Quot.sound |
| `Verif.Persist.C54_crash` | propext, Quot.sound |
| `Verif.Persist.C54_old_lost` | propext, Classical.choice, Quot.sound |
| `Verif.Persist.C54_torn_write_detected` | propext, Classical.choice, Quot.sound |
| `Verif.Imu.C55_mean` | propext, Classical.choice, Quot.sound |
| `Verif.Imu.C55_mean_full` | propext, Classical.choice, Quot.sound |
| `Verif.Imu.C56_pitch` | propext, Classical.choice, Quot.sound |
| `Verif.Main.C57_report` | propext, Classical.choice, Quot.sound |
| `Verif.Main.C57_gnss` | propext, Classical.choice, Quot.sound |
| `Verif.Main.C57_completes` | propext, Classical.choice, Quot.sound |
| `Verif.System.C58_goto_then_packet` | propext, Classical.choice, Quot.sound |
| `Verif.System.C58_goto_then_packet_many` | propext, Classical.choice, Quot.sound |
| `Verif.System.C58_same_bytes` | propext, Classical.choice, Quot.sound |
| `Verif.System.C58_still_pointing` | propext, Classical.choice, Quot.sound |
| `Verif.System.C58_still_pointing_many` | propext, Classical.choice, Quot.sound |
| `Verif.System.C58_stars_kept` | propext, Classical.choice, Quot.sound |
| `Verif.Node.C59_node_connection` | propext, Classical.choice, Quot.sound |
| `Verif.Node.C59_node_extreme_crash` | propext, Classical.choice, Quot.sound |
| `Verif.Node.C59_node_decode` | propext, Classical.choice, Quot.sound |
| `Verif.Node.C59_node_encode` | propext, Classical.choice, Quot.sound |
| `Verif.Node.C60_node_agrees_with_firmware` | propext, Classical.choice, Quot.sound |
| `Verif.Node.C60_answers_unique` | propext, Classical.choice, Quot.sound |
| `Verif.Node.C61_node_position` | propext, Classical.choice, Quot.sound |
| `Verif.Node.C61_node_position_any` | propext, Classical.choice, Quot.sound |
| `Verif.Node.C61_node_overflow` | propext, Classical.choice, Quot.sound |
| `Verif.Python.C62_python_decodes` | propext, Classical.choice, Quot.sound |
| `Verif.Python.C62_python_loses` | propext, Classical.choice, Quot.sound |
| `Verif.Python.C62_python_goto` | propext, Classical.choice, Quot.sound |
| `Verif.Python.C62_python_glued` | propext, Classical.choice, Quot.sound |
| `Verif.System.C63_only_hazards` | propext, Classical.choice, Quot.sound |
| `Verif.System.C63_always_a_position` | propext, Classical.choice, Quot.sound |
| `Verif.System.C63_short_stops` | propext, Classical.choice, Quot.sound |
| `Verif.System.C63_position_stops` | propext, Classical.choice, Quot.sound |
| `Verif.System.C64_heading` | propext, Classical.choice, Quot.sound |
| `Verif.System.C64_heading_settles` | propext, Classical.choice, Quot.sound |
| `Verif.System.C64_pitch` | propext, Classical.choice, Quot.sound |
| `Verif.System.C64_oriented` | propext, Classical.choice, Quot.sound |
| `Verif.System.C64_no_early_report` | propext, Classical.choice, Quot.sound |
| `Verif.System.C65_report` | propext, Classical.choice, Quot.sound |
| `Verif.Codec.C66_unpack_exact` | propext, Classical.choice, Quot.sound |
| `Verif.Codec.C66_pack_near` | propext, Classical.choice, Quot.sound |
| `Verif.Codec.C66_pack_exact` | propext, Classical.choice, Quot.sound |
| `Verif.Codec.C66_repack` | propext, Classical.choice, Quot.sound |
| `Verif.NexStar.C66_nexstar_sync_exact` | propext, Classical.choice, Quot.sound |
| `Verif.NexStar.C66_nexstar_position` | propext, Classical.choice, Quot.sound |
| `Verif.NexStar.C66_nexstar_echo` | propext, Classical.choice, Quot.sound |
| `Verif.Setup.C67_setup` | propext, Quot.sound |
| `Verif.Setup.C67_switches` | propext, Quot.sound |
| `Verif.Setup.C67_steady` | propext, Quot.sound |
| `Verif.Setup.C67_alone` | propext, Quot.sound |
| `Verif.Setup.C67_only_with` | propext, Classical.choice, Quot.sound |
| `Verif.Link.C68_no_storm` | propext, Classical.choice, Quot.sound |
| `Verif.Link.C68_each_once` | propext, Classical.choice, Quot.sound |
| `Verif.Link.C68_in_order` | propext, Classical.choice, Quot.sound |
| `Verif.Link.C68_attempt` | propext, Classical.choice, Quot.sound |
| `Verif.Link.C68_comes_back` | propext, Classical.choice, Quot.sound |
| `Verif.Link.C68_deaf` | propext, Classical.choice, Quot.sound |
| `Verif.Link.C68_refines` | propext, Classical.choice, Quot.sound |
| `Verif.Coord64.C69_h2e` | propext, Classical.choice, Quot.sound |
| `Verif.Coord64.C69_e2h` | propext, Classical.choice, Quot.sound |
| `Verif.Coord64.C69_roundtrip` | propext, Classical.choice, Quot.sound |
| `Verif.Helper.C70_lst` | propext, Classical.choice, Quot.sound |
| `Verif.Helper.C70_fmod` | propext, Classical.choice, Quot.sound |
| `Verif.OneStar64.C71_position` | propext, Classical.choice, Quot.sound |
| `Verif.OneStar64.C71_echo` | propext, Classical.choice, Quot.sound |
| `Verif.Bla.C72_views` | propext, Classical.choice, Quot.sound |
| `Verif.Bla.C72_elementwise` | propext, Classical.choice, Quot.sound |
| `Verif.Bla.C72_product` | propext, Classical.choice, Quot.sound |
| `Verif.Bla.C72_update` | propext, Classical.choice, Quot.sound |
| `Verif.Bla.C72_product_into` | propext, Classical.choice, Quot.sound |
| `Verif.Bla.C72_self_transpose` | propext, Classical.choice, Quot.sound |
| `Verif.Bla.C72_trace` | propext, Classical.choice, Quot.sound |
| `Verif.Bla.C72_norm` | propext, Classical.choice, Quot.sound |
| `Verif.Bla.C72_lu` | propext, Classical.choice, Quot.sound |
| `Verif.Bla.C72_solve` | propext, Classical.choice, Quot.sound |
| `Verif.Bla.C72_invert` | propext, Classical.choice, Quot.sound |
| `Verif.Bla.C72_invert_in_place` | propext, Classical.choice, Quot.sound |
| `Verif.Bla.C72_determinant` | propext, Classical.choice, Quot.sound |
| `Verif.Bla.C72_instance` | propext, Classical.choice, Quot.sound |
| `Verif.Bla.C72_fill` | propext, Quot.sound |
| `Verif.Imu32.C73_mean` | propext, Classical.choice, Quot.sound |
| `Verif.Imu32.C73_pitch` | propext, Classical.choice, Quot.sound |
| `Verif.Imu32.C73_rest` | propext, Classical.choice, Quot.sound |
| `Verif.Race.C74_safe` | propext, Classical.choice, Quot.sound |
| `Verif.Race.C74_bytes` | propext, Classical.choice, Quot.sound |
| `Verif.Race.C74_intact` | propext, Classical.choice, Quot.sound |
| `Verif.Race.C74_replies` | propext, Classical.choice, Quot.sound |
| `Verif.Race.C74_alone` | propext, Quot.sound |
| `Verif.Race.C74_torn` | propext, Classical.choice, Quot.sound |
| `Verif.Race.C74_model` | propext, Classical.choice, Quot.sound |
| `Verif.Sparse.C75_elements` | propext, Classical.choice, Quot.sound |
| `Verif.Sparse.C75_full` | propext, Classical.choice, Quot.sound |
| `Verif.Sparse.C75_apart` | propext, Classical.choice, Quot.sound |
| `Verif.Sparse.C75_large` | propext, Classical.choice, Quot.sound |
| `Verif.Sparse.C75_lost` | propext, Classical.choice, Quot.sound |
| `Verif.Shared.C76_alone_sync` | propext, Classical.choice, Quot.sound |
| `Verif.Shared.C76_alone_position` | propext, Classical.choice, Quot.sound |
| `Verif.Shared.C76_telescope_sync` | propext, Classical.choice, Quot.sound |
| `Verif.Shared.C76_telescope_position` | propext, Classical.choice, Quot.sound |
| `Verif.Shared.C76_telescope_reached` | propext, Classical.choice, Quot.sound |
| `Verif.Shared.C76_looking` | propext, Classical.choice, Quot.sound |
| `Verif.Shared.C76_reset` | propext, Classical.choice, Quot.sound |
| `Verif.Shared.C76_one_writer` | propext, Classical.choice, Quot.sound |
| `Verif.Shared.C76_objects` | propext, Classical.choice, Quot.sound |
| `Verif.Shared.C76_torn_orientation` | propext, Classical.choice, Quot.sound |
| `Verif.Shared.C76_first_sync_uninitialised` | propext, Classical.choice, Quot.sound |
| `Verif.Shared.C76_resync_uncalibrated` | propext, Classical.choice, Quot.sound |
| `Verif.Shared.C76_two_writers_out_of_bounds` | propext, Classical.choice, Quot.sound |
| `Verif.SharedGnss.C77_piece` | propext, Classical.choice, Quot.sound |
| `Verif.SharedGnss.C77_buffer` | propext, Classical.choice, Quot.sound |
| `Verif.SharedGnss.C77_moment` | propext, Classical.choice, Quot.sound |
| `Verif.SharedGnss.C77_time` | propext, Classical.choice, Quot.sound |
| `Verif.SharedGnss.C77_time_parts` | propext, Classical.choice, Quot.sound |
| `Verif.SharedGnss.C77_location` | propext, Classical.choice, Quot.sound |
| `Verif.SharedGnss.C77_place` | propext, Classical.choice, Quot.sound |
| `Verif.SharedGnss.C77_quiet` | propext, Classical.choice, Quot.sound |
| `Verif.SharedGnss.C77_torn_hour` | propext, Classical.choice, Quot.sound |
| `Verif.SharedGnss.C77_torn_sidereal` | propext, Classical.choice, Quot.sound |
| `Verif.SharedGnss.C77_torn_midnight` | propext, Classical.choice, Quot.sound |
| `Verif.SharedGnss.C77_torn_new_year` | propext, Classical.choice, Quot.sound |
| `Verif.SharedGnss.C77_torn_degree` | propext, Classical.choice, Quot.sound |
| `Verif.Linalg64.C78_triangle` | propext, Classical.choice, Quot.sound |
| `Verif.Linalg64.C78_line` | propext, Classical.choice, Quot.sound |
| `Verif.Linalg64.C78_degrees` | propext, Classical.choice, Quot.sound |
| `Verif.Linalg64.C78_star` | propext, Classical.choice, Quot.sound |
| `Verif.Linalg64.C78_line_degrees` | propext, Classical.choice, Quot.sound |
| `Verif.Linalg64.C78_needle` | propext, Classical.choice, Quot.sound |
| `Verif.Telescope64.C79_type` | propext, Classical.choice, Quot.sound |
| `Verif.Telescope64.C79_one_star` | propext, Classical.choice, Quot.sound |
| `Verif.Telescope64.C79_line` | propext, Classical.choice, Quot.sound |
| `Verif.Telescope64.C79_two_stars` | propext, Classical.choice, Quot.sound |
| `Verif.Telescope64.C79_triangle` | propext, Classical.choice, Quot.sound |
| `Verif.Telescope64.C79_three_stars` | propext, Classical.choice, Quot.sound |
| `Verif.Telescope64.C79_total` | propext, Classical.choice, Quot.sound |
| `Verif.Telescope64.C79_missed` | propext, Classical.choice, Quot.sound |
| `Verif.Session64.C80_story` | propext, Classical.choice, Quot.sound |
| `Verif.Session64.C80_one_star` | propext, Classical.choice, Quot.sound |
| `Verif.Session64.C80_two_stars` | propext, Classical.choice, Quot.sound |
| `Verif.Session64.C80_three_stars` | propext, Classical.choice, Quot.sound |
| `Verif.Shared.C81_words` | propext, Classical.choice, Quot.sound |
| `Verif.Shared.C81_torn_close` | propext, Classical.choice, Quot.sound |
| `Verif.Shared.C81_torn_range` | propext, Classical.choice, Quot.sound |
| `Verif.Shared.C81_includes` | propext, Quot.sound |
| `Verif.Shared.C81_looking` | propext, Classical.choice, Quot.sound |
| `Verif.Shared.C81_reset` | propext, Classical.choice, Quot.sound |
| `Verif.Shared.C81_one_writer` | propext, Classical.choice, Quot.sound |
| `Verif.Shared.C81_angles` | propext, Classical.choice, Quot.sound |
| `Verif.Shared.C81_torn_azimuth` | propext, Classical.choice, Quot.sound |
| `Verif.Shared.C81_tearing` | propext, Classical.choice, Quot.sound |
| `Verif.Shared.C81_whole` | propext, Quot.sound |
| `Verif.Telescope64.C82_triangulation` | propext, Classical.choice, Quot.sound |
| `Verif.Telescope64.C82_sync` | propext, Classical.choice, Quot.sound |
| `Verif.Telescope64.C82_stars` | propext, Classical.choice, Quot.sound |
| `Verif.Telescope64.C82_run` | propext, Classical.choice, Quot.sound |
| `Verif.Telescope64.C82_run_stars` | propext, Classical.choice, Quot.sound |
| `Verif.Session64.C82_evening` | propext, Classical.choice, Quot.sound |
| `Verif.Session64.C82_session` | propext, Classical.choice, Quot.sound |
| `Verif.Gyro32.C83_store` | propext, Quot.sound |
| `Verif.Gyro32.C83_mean` | propext, Classical.choice, Quot.sound |
| `Verif.Gyro32.C83_clip_real` | propext, Classical.choice, Quot.sound |
| `Verif.Gyro32.C83_clip_int` | propext, Classical.choice, Quot.sound |
| `Verif.Gyro32.C83_clip` | propext, Classical.choice, Quot.sound |
| `Verif.Gyro32.C83_calibrate` | propext, Classical.choice, Quot.sound |
| `Verif.Gyro32.C83_log` | propext, Classical.choice, Quot.sound |
| `Verif.Firmware64.C84_history` | propext, Classical.choice, Quot.sound |
| `Verif.Firmware64.C84_one_star` | propext, Classical.choice, Quot.sound |
| `Verif.Firmware64.C84_two_stars` | propext, Classical.choice, Quot.sound |
| `Verif.Firmware64.C84_three_stars` | propext, Classical.choice, Quot.sound |
| `Verif.Firmware64.C84_many_stars` | propext, Classical.choice, Quot.sound |
| `Verif.Firmware64.C85_only_causes` | propext, Classical.choice, Quot.sound |
| `Verif.Firmware64.C85_sensors` | propext, Classical.choice, Quot.sound |
| `Verif.Firmware64.C85_syncs` | propext, Classical.choice, Quot.sound |
| `Verif.Firmware64.C85_answers` | propext, Classical.choice, Quot.sound |
