# Axioms of each theorem

The answer of `#print axioms` for every theorem named in `MANIFEST.json`, grouped by the set of axioms.

## none (13 theorems)

* `Verif.Adsb.Props.sixBit_injective`
* `Verif.TextKernel.Props.gregorian_jd_fails_2100`
* `Verif.Ffi.Props.codes_published`
* `Verif.Ffi.Props.hand_codes_round_trip`
* `Verif.Ffi.Props.guard_total`
* `Verif.Ffi.Props.icrs_subject_frame_ignored`
* `Verif.Series.Props.tables_distinct`
* `Verif.Handles.labels_true`
* `Verif.Catalog.nan_beyond`
* `Verif.CFrames.Props.context_model`
* `Verif.Sites.Props.place_to_ecef`
* `Verif.Sites.Props.place_guard`
* `Verif.Sites.Props.any_place_accepted`

## propext (22 theorems)

* `Verif.Tle.Props.validate_panics_on_multibyte`
* `Verif.Spk.Props.state_self`
* `Verif.Spk.Props.kernel_first_in_file_wins`
* `Verif.Spk.Props.kernel_set_last_in_file_wins`
* `Verif.Spk.Props.kernel_set_does_not_chain_across_files`
* `Verif.Ffi.Props.unknown_codes_accepted`
* `Verif.Ffi.Props.params_round_trip_iff`
* `Verif.Ffi.Props.null_output`
* `Verif.Ffi.Props.scalar_null_first`
* `Verif.Ffi.Props.horizontal_swapped`
* `Verif.Earth.Props.frames_connected`
* `Verif.Doris.Props.names_back`
* `Verif.Handles.coefficient_iff`
* `Verif.Handles.coefficient_error_cut`
* `Verif.Catalog.gt_iff`
* `Verif.Bodies.unchecked_loses`
* `Verif.Boundary.label_codes`
* `Verif.Spk.Coverage.window_not_coverage`
* `Verif.Spk.Coverage.window_missing`
* `Verif.Naming.Props.columns_unique`
* `Verif.Sites.Props.sites_on_earth`
* `Verif.CStar.Props.unicode_example`

## propext, Quot.sound (68 theorems)

* `Verif.Sha256.Props.sha256_is_fips`
* `Verif.Sha256.Props.sha256_length_32`
* `Verif.Sha256.Props.hex32_toHex`
* `Verif.Sha256.Props.toHex_lowercase`
* `Verif.Tle.Props.alpha5_rejects`
* `Verif.Tle.Props.year_round_trip`
* `Verif.Adsb.Props.frame_accessors`
* `Verif.Interp.Props.locate_outside`
* `Verif.Interp.Props.dyn_outside`
* `Verif.Interp.Props.window_centred`
* `Verif.Spk.Props.geometric_is_difference`
* `Verif.Spk.Props.geometric_swap`
* `Verif.Spk.Props.planet_is_difference`
* `Verif.Spk.Props.fromSsb_sound`
* `Verif.Spk.Props.kernel_set_last_wins`
* `Verif.TextKernel.Props.before_table_not_reported`
* `Verif.TextKernel.Props.before_clock_refused`
* `Verif.Ffi.Props.write_out`
* `Verif.Ffi.Props.array_contract`
* `Verif.Ffi.Props.free_once`
* `Verif.Ffi.Props.client_history`
* `Verif.Ffi.Props.oem_contract`
* `Verif.Ffi.Props.handle_contract`
* `Verif.Ffi.Props.star_name_in_bounds`
* `Verif.Ffi.Props.search_failure_silent`
* `Verif.Solar.Props.empty_window_gives_period`
* `Verif.Naming.Props.token_value`
* `Verif.Naming.Props.token_not_injective`
* `Verif.RootFinding.Props.extrema_sorted`
* `Verif.Ffi.Props.frame_change_faithful`
* `Verif.Ffi.Props.horizontal_accepts_partial`
* `Verif.Ffi.Props.dispatch_faithful_partial`
* `Verif.Ffi.Props.generic_target_motion_ignored`
* `Verif.Apparent.contains_iff`
* `Verif.Apparent.union_least`
* `Verif.Apparent.contains_antisymm`
* `Verif.Apparent.contains_trans`
* `Verif.Apparent.stage_in_union`
* `Verif.Apparent.apparent_stages`
* `Verif.Apparent.report_stages`
* `Verif.Apparent.report_within`
* `Verif.Apparent.report_outside`
* `Verif.Igs.Props.mem_splits`
* `Verif.Igs.Props.plainYo_ok`
* `Verif.Igs.Props.sinex_pivot`
* `Verif.Omm.Props.builder_ok`
* `Verif.Omm.Props.builder_err`
* `Verif.Eop.Props.interpolate_before`
* `Verif.Eop.Props.interpolate_after`
* `Verif.Product.canonical`
* `Verif.Product.canonical_idempotent`
* `Verif.Product.json_order_free`
* `Verif.Product.json_order_kept`
* `Verif.Assembly.build_ok_iff`
* `Verif.Assembly.build_error_iff`
* `Verif.Handles.value_kept`
* `Verif.Handles.propagate_fresh`
* `Verif.Handles.meaning_shape`
* `Verif.Handles.gravity_accepted_iff`
* `Verif.Handles.vsop_answer`
* `Verif.Catalog.content_line`
* `Verif.Bodies.planet_built`
* `Verif.Bodies.planet_missing`
* `Verif.Bodies.comet_built`
* `Verif.Bodies.asteroid_built`
* `Verif.Bodies.planet_unchecked`
* `Verif.OemXml.Props.name_kept_iff`
* `Verif.CStar.Props.any_numbers`

## propext, Classical.choice, Quot.sound (1196 theorems)

* `Verif.Sha256.Props.hex32_iff`
* `Verif.Sha256.Props.gate_iff`
* `Verif.Tle.Props.checksum_accept_iff`
* `Verif.Tle.Props.checksum_accept_ascii`
* `Verif.Tle.Props.single_digit_corruption_detected`
* `Verif.Tle.Props.alpha5_accepted_iff`
* `Verif.Tle.Props.alpha5_field`
* `Verif.Tle.Props.alpha5_shape`
* `Verif.Tle.Props.alpha5_round_trip`
* `Verif.Tle.Props.alpha5_injective`
* `Verif.Tle.Props.alpha5_reader_range`
* `Verif.Tle.Props.expand_year_unique`
* `Verif.Tle.Props.assumed_width_iff`
* `Verif.Tle.Props.assumed_round_trip_partial`
* `Verif.Tle.Props.assumed_overflow`
* `Verif.Tle.Props.assumed_rounding_overflow`
* `Verif.Tle.Props.tle_round_trip_partial`
* `Verif.Tle.Props.tle_bstar_overflow_rejected`
* `Verif.Tle.Props.tle_year_end_rejected`
* `Verif.Tle.Props.parse_ascii_never_panics_partial`
* `Verif.Tle.Props.parse_panics_on_multibyte`
* `Verif.Adsb.Props.crc_is_remainder`
* `Verif.Adsb.Props.residue_zero_iff`
* `Verif.Adsb.Props.residue_zero_iff_parity`
* `Verif.Adsb.Props.burst_detected`
* `Verif.Adsb.Props.odd_errors_detected`
* `Verif.Adsb.Props.five_errors_detected`
* `Verif.Adsb.Props.parse_frame_iff`
* `Verif.Adsb.Props.parse_frame_total`
* `Verif.Adsb.Props.corrupted_text_rejected`
* `Verif.Adsb.Props.identification_iff`
* `Verif.Adsb.Props.identification_total`
* `Verif.Adsb.Props.callsign_round_trip`
* `Verif.Adsb.Props.altitude_decode`
* `Verif.Adsb.Props.altitude_round_trip`
* `Verif.Adsb.Props.altitude_injective`
* `Verif.Adsb.Props.position_fields`
* `Verif.Adsb.Props.velocity_decode_partial`
* `Verif.Adsb.Props.velocity_rejects`
* `Verif.Adsb.Props.velocity_no_information_decoded`
* `Verif.Adsb.Props.local_recovers_partial`
* `Verif.Adsb.Props.quantisation`
* `Verif.Adsb.Props.local_nearest`
* `Verif.Adsb.Props.zone_count`
* `Verif.Adsb.Props.local_wrong_at_87`
* `Verif.Adsb.Props.global_recovers_partial`
* `Verif.Adsb.Props.global_number`
* `Verif.Adsb.Props.global_nan_at_pole`
* `Verif.Adsb.Props.global_latitude_unchecked`
* `Verif.Event.Props.periods_wellformed_partial`
* `Verif.Event.Props.periods_can_overlap`
* `Verif.Event.Props.above_periods_exact_directed`
* `Verif.Event.Props.above_periods_exact_partial`
* `Verif.Event.Props.tangency_drops_period`
* `Verif.Event.Props.directed_terminates`
* `Verif.Event.Props.labelled_terminates`
* `Verif.Event.Props.in_range_exact_directed`
* `Verif.Event.Props.in_range_exact_partial`
* `Verif.Event.Props.crossings_genuine`
* `Verif.Event.Props.plain_crossings_genuine`
* `Verif.Event.Props.plain_crossings_sorted`
* `Verif.Event.Props.no_sampled_sign_change_missed_partial`
* `Verif.Event.Props.exact_zero_sample_missed`
* `Verif.Event.Props.nonpositive_step_never_finishes`
* `Verif.RootFinding.Props.bisection_sound`
* `Verif.RootFinding.Props.bisection_none_iff`
* `Verif.RootFinding.Props.brent_sound`
* `Verif.RootFinding.Props.brent_none_iff`
* `Verif.RootFinding.Props.brentTol_sound`
* `Verif.RootFinding.Props.brent_converges`
* `Verif.RootFinding.Props.bisection_near_zero`
* `Verif.RootFinding.Props.brent_near_zero`
* `Verif.RootFinding.Props.minimize_in_interval`
* `Verif.RootFinding.Props.maximize_in_interval`
* `Verif.RootFinding.Props.minimize_accurate`
* `Verif.RootFinding.Props.maximize_accurate`
* `Verif.Daf.daf_self_pointer_never_finishes`
* `Verif.Daf.daf_hang_witness`
* `Verif.Daf.daf_panic_witness`
* `Verif.Daf.daf_parse_finishes_partial`
* `Verif.Daf.daf_hang_is_early`
* `Verif.Daf.daf_reads_summaries`
* `Verif.Daf.daf_reads_spk_summaries`
* `Verif.Daf.daf_write_read`
* `Verif.Daf.spk_segment_no_panic`
* `Verif.Daf.spk_segment_debug_panic`
* `Verif.Daf.spk_segment_iff_layout`
* `Verif.Daf.spk_segment_table`
* `Verif.Daf.spk_index_segments`
* `Verif.Daf.spk_kernel_chebyshev_panics`
* `Verif.Daf.spk_kernel_chebyshev_no_panic_partial`
* `Verif.Daf.spk_kernel_chebyshev_table`
* `Verif.Daf.spk_kernel_discrete_panics`
* `Verif.Daf.spk_kernel_discrete_no_panic_partial`
* `Verif.Daf.spk_kernel_discrete_table`
* `Verif.Daf.spk_big_endian_words_reversed`
* `Verif.Daf.spk_big_endian_witness`
* `Verif.Interp.Props.located_record_contains_epoch`
* `Verif.Interp.Props.locate_normalised`
* `Verif.Interp.Props.eval_no_panic`
* `Verif.Interp.Props.dyn_locates`
* `Verif.Interp.Props.dyn_total`
* `Verif.Interp.Props.lagrange_reproduces_polynomial`
* `Verif.Interp.Props.lagrange_at_node`
* `Verif.Interp.Props.type9_at_tabulated_epoch`
* `Verif.Interp.Props.type9_reproduces_polynomial`
* `Verif.Interp.Props.hermite_reproduces_polynomial`
* `Verif.Interp.Props.hermite_osculates`
* `Verif.Interp.Props.type13_at_tabulated_epoch`
* `Verif.Interp.Props.type13_reproduces_polynomial`
* `Verif.Interp.Props.window_brackets`
* `Verif.Interp.Props.window_exists`
* `Verif.Interp.Props.window_outside`
* `Verif.Spk.Props.state_sound`
* `Verif.Spk.Props.state_finishes`
* `Verif.Spk.Props.state_never_panics`
* `Verif.Spk.Props.chain_found_iff`
* `Verif.Spk.Props.no_chain_iff`
* `Verif.Spk.Props.out_of_coverage_iff`
* `Verif.Spk.Props.covered_elsewhere`
* `Verif.Spk.Props.state_ok_iff`
* `Verif.Spk.Props.out_of_coverage_without_any_epoch`
* `Verif.Spk.Props.unsupported_segment_shadows_supported`
* `Verif.Spk.Props.state_is_difference`
* `Verif.Spk.Props.state_swap`
* `Verif.Spk.Props.state_triangle`
* `Verif.Spk.Props.fromSsb_finishes`
* `Verif.Spk.Props.fromSsb_complete`
* `Verif.Spk.Props.geometric_finishes`
* `Verif.Spk.Props.edge_last_wins`
* `Verif.Spk.Props.ssb_last_wins`
* `Verif.Spk.Props.kernel_set_ok_iff`
* `Verif.Spk.Props.mass_weighted_mean`
* `Verif.Spk.Props.moon_is_difference`
* `Verif.Spk.Props.heliocentric_is_difference`
* `Verif.Spk.Props.mass_weighted_mean_direct`
* `Verif.Spk.Props.velocity_mass_weighted_mean`
* `Verif.Spk.Props.fractions_sum`
* `Verif.Spk.Props.earth_segment_out_of_range_no_fallback`
* `Verif.TextKernel.Props.written_kernel_is_read_partial`
* `Verif.TextKernel.Props.parse_finishes`
* `Verif.TextKernel.Props.numbers_are_read`
* `Verif.TextKernel.Props.comments_removed`
* `Verif.TextKernel.Props.commented_line`
* `Verif.TextKernel.Props.string_over_lines`
* `Verif.TextKernel.Props.plus_equals_inside_string`
* `Verif.TextKernel.Props.comment_inside_string`
* `Verif.TextKernel.Props.doubled_quote_refused`
* `Verif.TextKernel.Props.fortran_exponent_is_text`
* `Verif.TextKernel.Props.value_on_next_line_refused`
* `Verif.TextKernel.Props.unfinished_statement_dropped`
* `Verif.TextKernel.Props.leap_lookup_partial`
* `Verif.TextKernel.Props.lsk_table_sorted`
* `Verif.TextKernel.Props.gregorian_jd_correct`
* `Verif.TextKernel.Props.epoch_text_read`
* `Verif.TextKernel.Props.et_roundtrip`
* `Verif.TextKernel.Props.ticks_roundtrip`
* `Verif.TextKernel.Props.overlapping_clock_not_inverted`
* `Verif.Frames.Props.pole_matrix_proper`
* `Verif.Frames.Props.pole_image`
* `Verif.Frames.Props.pole_correct_iff_partial`
* `Verif.Frames.Props.body_rotation_partial`
* `Verif.Frames.Props.meridian_image`
* `Verif.Frames.Props.pole_wrong`
* `Verif.Frames.Props.frame_orthogonal`
* `Verif.Frames.Props.rotation_self`
* `Verif.Frames.Props.rotation_eq`
* `Verif.Frames.Props.rotations_compose`
* `Verif.Frames.Props.rotation_back`
* `Verif.Frames.Props.rotation_orthogonal`
* `Verif.Frames.Props.frame_fuel_mono`
* `Verif.Frames.Props.frame_relative`
* `Verif.Frames.Props.last_frame_wins`
* `Verif.Frames.Props.diverges_iff`
* `Verif.Frames.Props.resolution_terminates_partial`
* `Verif.Frames.Props.cyclic_frames_diverge`
* `Verif.Frames.Props.radii_only_panics`
* `Verif.Frames.Props.no_panic`
* `Verif.Ck.Props.attitude_at_record`
* `Verif.Ck.Props.attitude_between`
* `Verif.Ck.Props.attitude_total`
* `Verif.Ck.Props.attitude_unit`
* `Verif.Ck.Props.slerp_unit`
* `Verif.Ck.Props.slerp_ends`
* `Verif.Ck.Props.slerp_uniform`
* `Verif.Ck.Props.normalize_idem`
* `Verif.Ck.Props.sign_irrelevant_partial`
* `Verif.Ck.Props.table_sign_irrelevant_partial`
* `Verif.Ck.Props.orthogonal_sign_matters`
* `Verif.Ck.Props.rotation_spec`
* `Verif.Ck.Props.shadowed_segment`
* `Verif.Ck.Props.records_sorted`
* `Verif.Ck.Props.linear_ok`
* `Verif.Sky.Props.twilight_table`
* `Verif.Sky.Props.twilight_monotone`
* `Verif.Sky.Props.twilight_thresholds`
* `Verif.Sky.Props.twilight_nan`
* `Verif.Sky.Props.twilight_prose_wrong`
* `Verif.Sky.Props.label_total`
* `Verif.Sky.Props.label_iff_partial`
* `Verif.Sky.Props.label_order`
* `Verif.Sky.Props.label_centre`
* `Verif.Sky.Props.label_waxing`
* `Verif.Sky.Props.wide_window`
* `Verif.Sky.Props.large_elongation_never_finishes`
* `Verif.Sky.Props.phase_angle_correct`
* `Verif.Sky.Props.great_circle_angle`
* `Verif.Sky.Props.geocentric_correct`
* `Verif.Sky.Props.geocentric_range`
* `Verif.Sky.Props.fraction_ends`
* `Verif.Sky.Props.topocentric_range_partial`
* `Verif.Sky.Props.topocentric_full_turn`
* `Verif.Sky.Props.arc_iff`
* `Verif.Sky.Props.range_test`
* `Verif.Sky.Props.wrapped_range_test`
* `Verif.Sky.Props.range_periods_exact_partial`
* `Verif.Sky.Props.wrapped_periods_exact_partial`
* `Verif.Sky.Props.long_arc_wrong`
* `Verif.Sky.Props.crossing_bearing_partial`
* `Verif.Sky.Props.crossing_direction_partial`
* `Verif.Sky.Props.opposite_bearing_reported`
* `Verif.Sky.Props.unwrap_mod`
* `Verif.Sky.Props.unwrap_step`
* `Verif.Sky.Props.unwrap_true`
* `Verif.Sky.Props.unwrap_wrap`
* `Verif.Sky.Props.unwrap_history`
* `Verif.Ccsds.Props.iso_calendar`
* `Verif.Ccsds.Props.iso_round_trip`
* `Verif.Ccsds.Props.iso_read`
* `Verif.Ccsds.Props.iso_sixty_seconds`
* `Verif.Ccsds.Props.iso_negative_year`
* `Verif.Ccsds.Props.iso_accepts_nonsense`
* `Verif.Ccsds.Props.read_segments_partial`
* `Verif.Ccsds.Props.block_loses_single_segment`
* `Verif.Ccsds.Props.block_loses_second_segment`
* `Verif.Ccsds.Props.unfinished_block_accepted`
* `Verif.Ccsds.Props.escape_no_markup`
* `Verif.Ccsds.Props.escape_round_trip`
* `Verif.Sp3.Props.stream_equals_batch`
* `Verif.Sp3.Props.end_stays`
* `Verif.Rinex.Props.permissive_no_error`
* `Verif.Rinex.Props.no_header`
* `Verif.Rinex.Props.permissive_keeps_partial`
* `Verif.Rinex.Props.strict_exact_partial`
* `Verif.Rinex.Props.strict_no_panic_partial`
* `Verif.Rinex.Props.strict_then_permissive`
* `Verif.Rinex.Props.records_exist`
* `Verif.Rinex.Props.short_line_panics`
* `Verif.Rinex.Props.non_ascii_panics`
* `Verif.Rinex.Props.wrapped_numbers_accepted`
* `Verif.Rinex.Props.nonsense_seconds_are_zero`
* `Verif.Rinex.Props.strict_accepts_nonsense`
* `Verif.Rinex.Props.write_read_partial`
* `Verif.Rinex.Props.small_negative_clock_unreadable`
* `Verif.Rinex.Props.small_negative_clock_refused`
* `Verif.Rinex.Props.small_negative_clock_lost`
* `Verif.Rinex.Props.fraction_lost`
* `Verif.Rinex.Props.leap_second_unreadable`
* `Verif.Rinex.Props.three_digit_prn_unreadable`
* `Verif.Rinex.Props.precision_claim_false`
* `Verif.Sck.Props.parse_iff`
* `Verif.Sck.Props.parse_encode`
* `Verif.Sck.Props.parse_panic_iff`
* `Verif.Sck.Props.small_file_panics`
* `Verif.Sck.Props.parse_total_partial`
* `Verif.Ffi.Props.decode_exact`
* `Verif.Ffi.Props.decode_injective`
* `Verif.Ffi.Props.names_round_trip`
* `Verif.Ffi.Props.names_sound`
* `Verif.Ffi.Props.status_codes`
* `Verif.Ffi.Props.search_null_partial`
* `Verif.Ffi.Props.search_null_not_first`
* `Verif.Ffi.Props.search_success`
* `Verif.Solar.Props.days_cover`
* `Verif.Solar.Props.days_finish`
* `Verif.Solar.Props.transit_in_day`
* `Verif.Solar.Props.transit_owner_processed`
* `Verif.Solar.Props.candidate_in_influence`
* `Verif.Solar.Props.candidate_answered`
* `Verif.Solar.Props.solar_crossings_genuine`
* `Verif.Solar.Props.solar_search_finishes`
* `Verif.Solar.Props.batch_eq_single`
* `Verif.Solar.Props.sunset_reported_as_sunrise`
* `Verif.Solar.Props.sunrise_reported_as_sunset`
* `Verif.Solar.Props.polar_day_reported_as_night`
* `Verif.Solar.Props.no_crossing_day_sees_three_samples`
* `Verif.Naming.Props.short_name_spec`
* `Verif.Naming.Props.short_name_unique`
* `Verif.Naming.Props.short_name_unique_centres`
* `Verif.Naming.Props.before_gps_minus`
* `Verif.Naming.Props.token_three_iff`
* `Verif.Naming.Props.long_tokens`
* `Verif.Naming.Props.lfn_injective`
* `Verif.Naming.Props.sp3_name_unique`
* `Verif.Sky.Props.observer_orthogonal`
* `Verif.Sky.Props.horizontal_rotation`
* `Verif.Sky.Props.horizontal_range`
* `Verif.Sky.Props.star_rotation`
* `Verif.Sky.Props.equatorial_of_unit`
* `Verif.RootFinding.Props.extrema_terminates`
* `Verif.RootFinding.Props.extrema_sound`
* `Verif.RootFinding.Props.extrema_peak_found_partial`
* `Verif.RootFinding.Props.extrema_valley_found_partial`
* `Verif.RootFinding.Props.peak_in_first_step_missed`
* `Verif.Interp.Props.type2_velocity_is_derivative`
* `Verif.Interp.Props.dyn_velocity_is_derivative`
* `Verif.Interp.Time.et_exists_unique`
* `Verif.Interp.Time.tt_to_et_accurate`
* `Verif.Interp.Time.tt_to_et_offset`
* `Verif.Interp.Time.et_strictly_increasing`
* `Verif.Interp.Time.tt_to_et_monotone`
* `Verif.Interp.Props.stack_selects_last`
* `Verif.Frames.Props.pck_order_irrelevant`
* `Verif.Frames.Props.alias_order_matters`
* `Verif.Sky.Props.phase_events_genuine`
* `Verif.Sky.Props.phase_events_residual`
* `Verif.Sky.Props.phase_event_found`
* `Verif.Sky.Props.angleDiff_spec`
* `Verif.Sky.Props.new_moon_example`
* `Verif.Sky.Props.sample_times`
* `Verif.Sky.Props.sample_never_finishes`
* `Verif.Ccsds.Props.write_read`
* `Verif.Ccsds.Props.forged_metadata`
* `Verif.Sp3.Props.read_sound`
* `Verif.Sp3.Props.read_no_panic`
* `Verif.Sp3.Props.nonsense_seconds_accepted`
* `Verif.Sp3.Props.rounding_up_second`
* `Verif.Sp3.Props.write_read_partial`
* `Verif.Sp3.Props.nearly_sixty_unreadable`
* `Verif.Sp3.Props.leap_second_unreadable`
* `Verif.Sck.Props.evaluate_first`
* `Verif.Sck.Props.evaluate_out`
* `Verif.Sck.Props.evaluate_malformed`
* `Verif.Sck.Props.fit_covers`
* `Verif.Sck.Props.short_block_never_ends`
* `Verif.Sck.Props.zero_radius_nan`
* `Verif.Cpf.Props.read_iff_partial`
* `Verif.Cpf.Props.epoch_iff`
* `Verif.Cpf.Props.read_no_panic`
* `Verif.Cpf.Props.permissive_refuses`
* `Verif.Cpf.Props.huge_mjd_panics`
* `Verif.Cpf.Props.bad_seconds_are_midnight`
* `Verif.Cpf.Props.year_wraps`
* `Verif.Cpf.Props.write_read_partial`
* `Verif.Cpf.Props.write_read_all`
* `Verif.Cpf.Props.step_lost`
* `Verif.Cpf.Props.frame_lost`
* `Verif.Cpf.Props.late_time_unreadable`
* `Verif.Ffi.Props.shift_same_point`
* `Verif.Ffi.Props.shift_compose`
* `Verif.Ffi.Props.shift_invert`
* `Verif.Ffi.Props.transform_center_total`
* `Verif.Ffi.Props.transform_center_au_partial`
* `Verif.Ffi.Props.transform_center_units`
* `Verif.Ffi.Props.bodycentric_round_trip`
* `Verif.Ffi.Props.bodycentric_vector`
* `Verif.Ffi.Props.bodycentric_unit_lost`
* `Verif.Ffi.Props.unknown_orbit_center`
* `Verif.Search.Props.scan_always_finishes`
* `Verif.Search.Props.scan_crossings_genuine`
* `Verif.Search.Props.scan_sign_change_reported_partial`
* `Verif.Search.Props.scan_zero_sample_reported`
* `Verif.Search.Props.scan_loses_crossing`
* `Verif.Search.Props.search_always_finishes`
* `Verif.Search.Props.search_crossings_genuine`
* `Verif.Search.Props.search_sign_change_reported_partial`
* `Verif.Search.Props.search_not_empty_partial`
* `Verif.Search.Props.search_loses_crossing`
* `Verif.Altitude.crossings_finish`
* `Verif.Altitude.angle_of_sin`
* `Verif.Altitude.altitude_crossings_genuine`
* `Verif.Altitude.threshold_reflected`
* `Verif.Altitude.above_hundred_degrees`
* `Verif.Altitude.below_is_complement`
* `Verif.Altitude.band_is_difference`
* `Verif.Altitude.empty_window`
* `Verif.Altitude.above_periods_partial`
* `Verif.Altitude.above_periods_overlap`
* `Verif.Altitude.short_passage_lost`
* `Verif.Moon.nutation_always_answers`
* `Verif.Moon.nutation_interpolated`
* `Verif.Moon.nutation_fallback`
* `Verif.Moon.nutation_accurate`
* `Verif.Moon.pos_get`
* `Verif.Moon.position_always_answers`
* `Verif.Moon.position_accurate`
* `Verif.Moon.sin_altitudeOf`
* `Verif.Moon.altitude_error`
* `Verif.Moon.nutation_identity`
* `Verif.Moon.cached_always_answers`
* `Verif.Moon.cached_close_to_direct`
* `Verif.Orbit.kepler_is_orbit`
* `Verif.Orbit.with_mu_is_orbit`
* `Verif.Orbit.mean_motion_is_orbit`
* `Verif.Orbit.conic_elliptic_is_orbit`
* `Verif.Orbit.conic_hyperbolic_is_orbit`
* `Verif.Orbit.parabola_refused`
* `Verif.Orbit.elements_validated`
* `Verif.Orbit.validated_never_panics`
* `Verif.Orbit.try_from_accepts_hyperbola`
* `Verif.Orbit.prepared_eq_direct`
* `Verif.Orbit.solar_constants_agree`
* `Verif.Orbit.c_geocentric_uses_sun`
* `Verif.Star.space_motion_straight`
* `Verif.Star.space_motion_fails_iff`
* `Verif.Star.star_straight`
* `Verif.Star.convention_irrelevant`
* `Verif.Star.static_star`
* `Verif.Star.linear_rates`
* `Verif.Star.catalogue_epoch_ignored`
* `Verif.Star.track_ignores_motion`
* `Verif.Star.mixed_years`
* `Verif.Star.radial_mixed_years`
* `Verif.Estimation.add_row_accepts`
* `Verif.Estimation.add_row_only`
* `Verif.Estimation.solve_minimises`
* `Verif.Estimation.solve_fails_iff`
* `Verif.Estimation.add_row_panics`
* `Verif.Estimation.rejected_row_spoils`
* `Verif.Estimation.covariance_valid`
* `Verif.Estimation.update_optimal`
* `Verif.Estimation.predict_cov`
* `Verif.Estimation.update_fails_iff`
* `Verif.Estimation.filter_is_least_squares`
* `Verif.Estimation.filter_order_irrelevant`
* `Verif.Estimation.gauss_newton_report`
* `Verif.Estimation.linear_converges`
* `Verif.Estimation.perfect_fit_never_converges`
* `Verif.Estimation.zero_tolerance_never_converges`
* `Verif.Pod.Props.noise_matrix`
* `Verif.Pod.Props.noise_covariance`
* `Verif.Pod.Props.noise_dimension`
* `Verif.Pod.Props.noise_cut`
* `Verif.Pod.Props.noise_test`
* `Verif.Pod.Props.markov_variance`
* `Verif.Pod.Props.backward_variance`
* `Verif.Pod.Props.schedule`
* `Verif.Pod.Props.schedule_total`
* `Verif.Pod.Props.sub_steps`
* `Verif.Pod.Props.cumulative_stm`
* `Verif.Pod.Props.arc_exists`
* `Verif.Pod.Props.parameter_column`
* `Verif.Pod.Props.column_difference`
* `Verif.Pod.Props.zero_column_difference`
* `Verif.Pod.Props.statistics`
* `Verif.Pod.Props.statistics_consistent`
* `Verif.Pod.Props.grouped`
* `Verif.Pod.Props.comparison_rms`
* `Verif.Pod.Props.comparison_panics`
* `Verif.Pod.Props.comparison_total`
* `Verif.Pod.Props.thrust_force`
* `Verif.Pod.Props.thrust_accepted`
* `Verif.Pod.Props.ledger_balances`
* `Verif.Pod.Props.ledger_entry`
* `Verif.Pod.Props.ledger_rocket`
* `Verif.Pod.Props.negative_thrust`
* `Verif.Pod.Props.displaced_range`
* `Verif.Pod.Props.shifts_commute`
* `Verif.Pod.Props.shapiro_correction`
* `Verif.Pod.Props.code_phase`
* `Verif.Pod.Props.two_frequencies`
* `Verif.Pod.Props.delays_positive`
* `Verif.Pod.Props.broadcast_ionosphere`
* `Verif.Pod.Props.relativistic_clock_wrong`
* `Verif.Pod.Props.earth_rotation`
* `Verif.Pod.Props.rotation_counted_twice`
* `Verif.Pod.Props.laser_corrections`
* `Verif.Pod.Props.laser_residual`
* `Verif.Pod.Props.laser_ignores_state`
* `Verif.Pod.Props.batch_residuals`
* `Verif.Pod.Props.batch_append`
* `Verif.Pod.Props.batch_never_ok`
* `Verif.Pod.Props.batch_tolerance_void`
* `Verif.Pod.Props.periodic`
* `Verif.Earth.Props.earth_rotation_angle`
* `Verif.Earth.Props.earth_rotation_split`
* `Verif.Earth.Props.earth_rotation_single`
* `Verif.Earth.Props.earth_rotation_rate`
* `Verif.Earth.Props.mean_sidereal_time`
* `Verif.Earth.Props.apparent_sidereal_time`
* `Verif.Earth.Props.complementary_terms`
* `Verif.Earth.Props.complementary_terms_small`
* `Verif.Earth.Props.teme_sidereal`
* `Verif.Earth.Props.ut1_refined`
* `Verif.Earth.Props.ut1_counted_twice`
* `Verif.Earth.Props.utc_accurate`
* `Verif.Earth.Props.frames_consistent`
* `Verif.Earth.Props.frames_consistent_offsets`
* `Verif.Earth.Props.inertial_frames_consistent`
* `Verif.Earth.Props.rotation_back`
* `Verif.Earth.Props.offsets_lost`
* `Verif.Earth.Props.intermediate_pole`
* `Verif.Earth.Props.intermediate_matrix`
* `Verif.Earth.Props.intermediate_pole_missed`
* `Verif.Earth.Props.intermediate_pole_error`
* `Verif.Earth.Props.intermediate_fixed_pole`
* `Verif.Earth.Props.true_and_intermediate_pole`
* `Verif.Earth.Props.precession_angles`
* `Verif.Earth.Props.pole_corrections`
* `Verif.Earth.Props.ecliptic_nutation`
* `Verif.Earth.Props.ecliptic_longitude`
* `Verif.Earth.Props.ecliptic_paths`
* `Verif.Earth.Props.polar_motion_pole`
* `Verif.Earth.Props.terrestrial_pole`
* `Verif.Earth.Props.polar_motion_order`
* `Verif.Earth.Props.topocentric_back`
* `Verif.Earth.Props.site_distance`
* `Verif.Earth.Props.frame_turns_east`
* `Verif.Earth.Props.site_turns_west`
* `Verif.Earth.Props.site_contradicts_frame`
* `Verif.Earth.Props.diurnal_velocity_reversed`
* `Verif.Earth.Props.fk4_rotation`
* `Verif.Earth.Props.galactic_rotation`
* `Verif.Earth.Props.galactic_inverted`
* `Verif.Mission.occultation_partial`
* `Verif.Mission.occultation_range`
* `Verif.Mission.eclipse_classes_partial`
* `Verif.Mission.umbra_sound`
* `Verif.Mission.eclipse_sound`
* `Verif.Mission.shadow_missed`
* `Verif.Mission.farther_body_hides`
* `Verif.Mission.obstructed_iff`
* `Verif.Mission.obstructed_symm`
* `Verif.Mission.obstructed_mono`
* `Verif.Mission.local_basis`
* `Verif.Mission.azel_direction`
* `Verif.Mission.range_and_rate`
* `Verif.Mission.pointing_partial`
* `Verif.Mission.zenith_not_ninety`
* `Verif.Mission.status_always_clear`
* `Verif.Mission.clear_through_body`
* `Verif.Mission.mask_profile`
* `Verif.Mission.horizon_unique`
* `Verif.Mission.mask_sample`
* `Verif.Mission.mask_bounds`
* `Verif.Mission.clears_profile`
* `Verif.Mission.mask_empty`
* `Verif.Mission.mask_unsorted`
* `Verif.Mission.beta_elevation`
* `Verif.Mission.beta_plane`
* `Verif.Mission.solar_time`
* `Verif.Mission.ltan_solar_time`
* `Verif.Mission.cone_contains`
* `Verif.Mission.rectangle_sound`
* `Verif.Apparent.aberration_lorentz`
* `Verif.Apparent.aberration_unit`
* `Verif.Apparent.aberration_cosine`
* `Verif.Apparent.aberration_towards`
* `Verif.Apparent.aberration_undone`
* `Verif.Apparent.velocity_roundtrip`
* `Verif.Apparent.position_roundtrip`
* `Verif.Apparent.deflection_angle`
* `Verif.Apparent.deflection_unit`
* `Verif.Apparent.deflection_none`
* `Verif.Apparent.deflection_behind`
* `Verif.Apparent.full_chain`
* `Verif.Apparent.planet_scale`
* `Verif.Apparent.solar_constant`
* `Verif.Apparent.magnitude_first_order`
* `Verif.Apparent.right_angle_magnitude`
* `Verif.Apparent.inverse_angle`
* `Verif.Apparent.inverse_error`
* `Verif.Apparent.order_matters`
* `Verif.Apparent.star_altitude`
* `Verif.Apparent.star_horizontal`
* `Verif.Apparent.policies_indistinct`
* `Verif.Apparent.apparent_without_aberration`
* `Verif.Apparent.geometric_mixes`
* `Verif.Grid.len_exact`
* `Verif.Grid.cells_ordered`
* `Verif.Grid.altitude_range`
* `Verif.Grid.azimuth_range`
* `Verif.Grid.cells_tile`
* `Verif.Grid.solid_total`
* `Verif.Grid.solid_error`
* `Verif.Grid.equal_cells`
* `Verif.Grid.azimuth_overflow`
* `Verif.Grid.overlap_total`
* `Verif.Grid.coverage_gap`
* `Verif.Grid.weighted_spec`
* `Verif.Grid.equal_area_grid`
* `Verif.Forces.battin_tidal`
* `Verif.Forces.battin_degenerate`
* `Verif.Forces.third_body_sum`
* `Verif.Forces.third_body_errors`
* `Verif.Forces.third_body_order`
* `Verif.Forces.bodies_placed`
* `Verif.Forces.sun_moon`
* `Verif.Forces.exponential_profile`
* `Verif.Forces.table_interpolates`
* `Verif.Forces.table_nodes`
* `Verif.Forces.table_decreasing`
* `Verif.Forces.drag_law`
* `Verif.Forces.drag_dissipates`
* `Verif.Forces.drag_errors`
* `Verif.Forces.drag_above`
* `Verif.Forces.constant_below_surface`
* `Verif.Forces.no_extrapolation_below`
* `Verif.Forces.tilted_rotation_ignored`
* `Verif.Forces.cylindrical_exact`
* `Verif.Forces.lit_eq`
* `Verif.Forces.conical_eq`
* `Verif.Forces.conical_covered`
* `Verif.Forces.umbra_exact`
* `Verif.Forces.light_exact`
* `Verif.Forces.srp_law`
* `Verif.Forces.srp_errors`
* `Verif.Forces.light_factors`
* `Verif.Forces.relativity_eq`
* `Verif.Forces.relativity_circular`
* `Verif.Forces.relativity_symmetry`
* `Verif.Forces.empirical_components`
* `Verif.Forces.geopotential_turns`
* `Verif.Forces.geopotential_errors`
* `Verif.Forces.low_degree`
* `Verif.Forces.two_body_coefficients`
* `Verif.Forces.altitude_distance`
* `Verif.Forces.altitude_turn`
* `Verif.Forces.spacecraft_accepted`
* `Verif.Forces.spacecraft_rejected`
* `Verif.Forces.adapter_step`
* `Verif.Forces.adapter_errors`
* `Verif.Kvn.Props.opm_reads`
* `Verif.Kvn.Props.opm_round_trip`
* `Verif.Kvn.Props.fixed_exact`
* `Verif.Kvn.Props.opm_lossless_iff`
* `Verif.Kvn.Props.opm_lenient`
* `Verif.Kvn.Props.opm_refusal_named`
* `Verif.Kvn.Props.tdm_reads`
* `Verif.Kvn.Props.tdm_rejects`
* `Verif.Kvn.Props.tdm_round_trip`
* `Verif.Kvn.Props.integrated_relabelled`
* `Verif.Kvn.Props.segments_merged`
* `Verif.Kvn.Props.placement_lost`
* `Verif.Kvn.Props.standard_refused`
* `Verif.Kvn.Props.tdm_lenient`
* `Verif.Igs.Props.orbex_reads`
* `Verif.Igs.Props.header_epoch`
* `Verif.Igs.Props.sample_orbex`
* `Verif.Igs.Props.orbex_permissive_refuses`
* `Verif.Igs.Props.orbex_bad_epochs`
* `Verif.Igs.Props.orbex_blocks_ignored`
* `Verif.Igs.Props.orbex_calendar_headers`
* `Verif.Igs.Props.sinex_reads`
* `Verif.Igs.Props.sinex_values_stated`
* `Verif.Igs.Props.sinex_one_solution`
* `Verif.Igs.Props.sinex_epoch`
* `Verif.Igs.Props.sample_sinex`
* `Verif.Igs.Props.sinex_mixed`
* `Verif.Igs.Props.sinex_one_per_code`
* `Verif.Igs.Props.sinex_epochs_silent`
* `Verif.Igs.Props.sinex_epoch_shape`
* `Verif.Igs.Props.antex_round_trip`
* `Verif.Igs.Props.antex_canonical`
* `Verif.Igs.Props.antenna_canonical`
* `Verif.Igs.Props.antex_sorted`
* `Verif.Igs.Props.pco_fits`
* `Verif.Igs.Props.antex_losses`
* `Verif.Igs.Props.antex_not_exact`
* `Verif.Omm.Props.kvn_reads`
* `Verif.Omm.Props.xml_reads`
* `Verif.Omm.Props.malformed_drag_zero`
* `Verif.Omm.Props.zone_dropped`
* `Verif.Omm.Props.kvn_round_trip`
* `Verif.Omm.Props.kvn_exact`
* `Verif.Omm.Props.xml_round_trip`
* `Verif.Omm.Props.xml_exact`
* `Verif.Omm.Props.unescape_escape`
* `Verif.Omm.Props.json_reads`
* `Verif.Omm.Props.json_round_trip`
* `Verif.Omm.Props.writers_fail`
* `Verif.Omm.Props.kvn_large_refused`
* `Verif.Omm.Props.xml_large_refused`
* `Verif.Omm.Props.contract_expand`
* `Verif.Omm.Props.expand_year`
* `Verif.Omm.Props.expand_contract`
* `Verif.Omm.Props.tle_round_trip`
* `Verif.Omm.Props.omm_round_trip`
* `Verif.Eop.Props.interpolate_inside`
* `Verif.Eop.Props.interpolate_total`
* `Verif.Eop.Props.interpolate_sorted`
* `Verif.Eop.Props.interpolate_node`
* `Verif.Eop.Props.chord_bounds`
* `Verif.Eop.Props.leap_second_smeared`
* `Verif.Eop.Props.read_data_line`
* `Verif.Eop.Props.read_file`
* `Verif.Eop.Props.bad_field_is_zero`
* `Verif.Eop.Props.iers_inside`
* `Verif.Eop.Props.iers_outside`
* `Verif.Eop.Props.iers_fabricates`
* `Verif.Eop.Props.context_fabricates`
* `Verif.Eop.Props.iers_missing_is_zero`
* `Verif.Eop.Props.ut1_from_utc`
* `Verif.Eop.Props.iers_len`
* `Verif.Eop.Props.iers_empty`
* `Verif.Eop.Props.context_values`
* `Verif.Atmosphere.Props.airmass_grows`
* `Verif.Atmosphere.Props.airmass_zenith`
* `Verif.Atmosphere.Props.airmass_zenith_exact`
* `Verif.Atmosphere.Props.airmass_horizon`
* `Verif.Atmosphere.Props.airmass_le_secant`
* `Verif.Atmosphere.Props.airmass_near_secant`
* `Verif.Atmosphere.Props.airmass_below_horizon`
* `Verif.Atmosphere.Props.transmission_fraction`
* `Verif.Atmosphere.Props.transmission_composes`
* `Verif.Atmosphere.Props.transmission_magnitudes`
* `Verif.Atmosphere.Props.transmission_falls`
* `Verif.Atmosphere.Props.rayleigh_pos`
* `Verif.Atmosphere.Props.rayleigh_falls`
* `Verif.Atmosphere.Props.rayleigh_law`
* `Verif.Atmosphere.Props.rayleigh_negative`
* `Verif.Atmosphere.Props.altitude_twice`
* `Verif.Atmosphere.Props.paranal_too_clear`
* `Verif.Atmosphere.Props.mie_law`
* `Verif.Atmosphere.Props.profile_splits`
* `Verif.Atmosphere.Props.preset_transmission`
* `Verif.Atmosphere.Props.preset_values`
* `Verif.Atmosphere.Props.vanRhijn_domain`
* `Verif.Atmosphere.Props.vanRhijn_never_inf`
* `Verif.Atmosphere.Props.vanRhijn_crossing`
* `Verif.Atmosphere.Props.vanRhijn_path`
* `Verif.Atmosphere.Props.pathTo_ends`
* `Verif.Atmosphere.Props.vanRhijn_shape`
* `Verif.Atmosphere.Props.vanRhijn_earth`
* `Verif.Atmosphere.Props.phase_normalised`
* `Verif.Atmosphere.Props.phase_shape`
* `Verif.Crd.Props.permissive_reads`
* `Verif.Crd.Props.strict_reads`
* `Verif.Crd.Props.strict_refuses`
* `Verif.Crd.Props.refusal_names`
* `Verif.Crd.Props.epoch_of_day`
* `Verif.Crd.Props.epoch_past_midnight`
* `Verif.Crd.Props.point_range`
* `Verif.Crd.Props.midnight_goes_back`
* `Verif.Crd.Props.return_rate_is_peak`
* `Verif.Obs.Props.write_read_partial`
* `Verif.Obs.Props.sixty_refused`
* `Verif.Obs.Props.sixty_file`
* `Verif.Obs.Props.wide_value_cut`
* `Verif.Obs.Props.undeclared_lost`
* `Verif.Obs.Props.long_marker`
* `Verif.Obs.Props.write_canonical`
* `Verif.Obs.Props.ascii_never_panics`
* `Verif.Obs.Props.other_text_panics`
* `Verif.Obs.Props.events_read_as_satellites`
* `Verif.Obs.Props.large_count_swallows`
* `Verif.Doris.Props.doris_reads`
* `Verif.Doris.Props.mjd_correct`
* `Verif.Doris.Props.continuation_lost`
* `Verif.Doris.Props.stale_epoch`
* `Verif.Doris.Props.bad_dates_read`
* `Verif.Doris.Props.empty_record_twice`
* `Verif.Doris.Props.doris_panics`
* `Verif.Doris.Props.doris_crlf`
* `Verif.Doris.Props.sidecar_reads`
* `Verif.Doris.Props.sidecar_refuses`
* `Verif.Lagrange.Props.linear_unique`
* `Verif.Lagrange.Props.linear_singular`
* `Verif.Lagrange.Props.line_search_descends`
* `Verif.Lagrange.Props.no_descent_full_step`
* `Verif.Lagrange.Props.solver_answers`
* `Verif.Lagrange.Props.gives_up_only`
* `Verif.Lagrange.Props.jacobian_affine`
* `Verif.Lagrange.Props.affine_one_step`
* `Verif.Lagrange.Props.threshold_is_loose`
* `Verif.Lagrange.Props.line_made`
* `Verif.Lagrange.Props.frame_made`
* `Verif.Lagrange.Props.frame_new`
* `Verif.Lagrange.Props.frame_errors`
* `Verif.Lagrange.Props.seeds_placed`
* `Verif.Lagrange.Props.triangles`
* `Verif.Lagrange.Props.triangle_residual`
* `Verif.Lagrange.Props.triangles_equilibria`
* `Verif.Lagrange.Props.records_value`
* `Verif.Lagrange.Props.records_outside`
* `Verif.Lagrange.Props.records_malformed`
* `Verif.Lagrange.Props.fit_covers`
* `Verif.Lagrange.Props.fit_refuses`
* `Verif.Lagrange.Props.fit_through_nodes`
* `Verif.Lagrange.Props.fit_accepted`
* `Verif.Lagrange.Props.fit_statistics`
* `Verif.Lagrange.Props.past_end_refused`
* `Verif.Lagrange.Props.last_not_best`
* `Verif.Series.Props.value_close`
* `Verif.Series.Props.value_exact`
* `Verif.Series.Props.position_exact`
* `Verif.Series.Props.velocity_close`
* `Verif.Series.Props.velocity_exact`
* `Verif.Series.Props.both_agrees`
* `Verif.Series.Props.position_velocity_agrees`
* `Verif.Series.Props.moon_is_barycentre`
* `Verif.Series.Props.nut00a_series`
* `Verif.Series.Props.nut00b_series`
* `Verif.Series.Props.nut06a_scales`
* `Verif.Series.Props.model_choice`
* `Verif.Series.Props.nut00a_bounded`
* `Verif.Series.Props.longitude_reverse`
* `Verif.Series.Props.latitude_argument_differs`
* `Verif.Series.Props.latitude_argument_wrong`
* `Verif.Series.Props.moon_series`
* `Verif.Series.Props.moon_ranges`
* `Verif.Series.Props.moon_direction`
* `Verif.Series.Props.equatorial_direction`
* `Verif.Kernels.Props.fk_read`
* `Verif.Kernels.Props.fk_written`
* `Verif.Kernels.Props.fk_lookup`
* `Verif.Kernels.Props.fk_missing`
* `Verif.Kernels.Props.order_irrelevant`
* `Verif.Kernels.Props.written_rotation`
* `Verif.Kernels.Props.fk_alias_refused`
* `Verif.Kernels.Props.fk_fraction_cut`
* `Verif.Kernels.Props.fk_spec_case`
* `Verif.Kernels.Props.fk_no_matrix`
* `Verif.Kernels.Props.ik_read`
* `Verif.Kernels.Props.sclk_read`
* `Verif.Kernels.Props.ik_lookup`
* `Verif.Kernels.Props.ik_boresight_ignored`
* `Verif.Kernels.Props.ik_units_ignored`
* `Verif.Kernels.Props.load_extends`
* `Verif.Kernels.Props.registry_invariant`
* `Verif.Kernels.Props.text_load_ok`
* `Verif.Kernels.Props.unknown_text_accepted`
* `Verif.Kernels.Props.binary_refused_unchanged`
* `Verif.Kernels.Props.lsk_agrees`
* `Verif.Kernels.Props.failed_load_kept`
* `Verif.Kernels.Props.undetected_kinds`
* `Verif.Kernels.Props.detection`
* `Verif.Kernels.Props.binary_load`
* `Verif.Centers.shift_is_difference`
* `Verif.Centers.shift_exists`
* `Verif.Centers.journeys_agree`
* `Verif.Centers.journey_rigid`
* `Verif.Centers.order_irrelevant`
* `Verif.Centers.planets_ignore_ephemeris`
* `Verif.Centers.planets_mix_sources`
* `Verif.Centers.transform_eq_to_with`
* `Verif.Centers.body_frames_consistent`
* `Verif.Centers.iau_unique`
* `Verif.Centers.passive_right_oriented`
* `Verif.Centers.active_left_inverse`
* `Verif.Centers.other_readings_misplace_pole`
* `Verif.Centers.angles_published`
* `Verif.Horizon.converted_azimuth`
* `Verif.Horizon.conversions_compose`
* `Verif.Horizon.shorthands`
* `Verif.Horizon.conversions_keep`
* `Verif.Horizon.to_horizontal_axes`
* `Verif.Horizon.to_equatorial_axes`
* `Verif.Horizon.horizontal_roundtrip`
* `Verif.Horizon.horizontal_position`
* `Verif.Horizon.mean_to_horizontal`
* `Verif.Horizon.second_axis_disagrees`
* `Verif.Horizon.mean_azimuth`
* `Verif.Horizon.mean_azimuth_mirrored`
* `Verif.Horizon.mean_roundtrip`
* `Verif.Horizon.mean_pole_undefined`
* `Verif.Horizon.apparent_seen`
* `Verif.Horizon.apparent_roundtrip`
* `Verif.Product.sp3_product`
* `Verif.Product.oem_product`
* `Verif.Product.refused_product_erases_file`
* `Verif.Product.sp3_header_fixed`
* `Verif.Product.sp3_header_same`
* `Verif.Product.sp3_count_column`
* `Verif.Product.csv_rows`
* `Verif.Product.csv_unquoted`
* `Verif.Product.parquet_rows`
* `Verif.Assembly.registry_history`
* `Verif.Assembly.builtin_makes`
* `Verif.Assembly.config_builds`
* `Verif.Assembly.custom_registration`
* `Verif.Assembly.default_config`
* `Verif.Assembly.oblateness_twice`
* `Verif.Assembly.checks_total`
* `Verif.Assembly.symmetric_iff`
* `Verif.Assembly.symmetric_error`
* `Verif.Assembly.diagonal_iff`
* `Verif.Assembly.diagonal_error`
* `Verif.Assembly.semidefinite_accepted`
* `Verif.Assembly.nan_covariance_accepted`
* `Verif.Assembly.index_of`
* `Verif.Assembly.steps_cover`
* `Verif.Assembly.predict_error_le`
* `Verif.Assembly.predict_error_zero`
* `Verif.Handles.handles_refine`
* `Verif.Handles.no_leak`
* `Verif.Handles.alloc_exists`
* `Verif.Handles.state_reads_back`
* `Verif.Handles.attached_kept`
* `Verif.Handles.density_iff`
* `Verif.Handles.providers_unused`
* `Verif.Handles.status_codes`
* `Verif.Catalog.cone_complete`
* `Verif.Catalog.cone_exact_same_dec`
* `Verif.Catalog.haversine_short`
* `Verif.Catalog.cone_bound`
* `Verif.Catalog.cone_meridian`
* `Verif.Catalog.cone_false_hits`
* `Verif.Catalog.search_complete`
* `Verif.Catalog.search_sound`
* `Verif.Catalog.passes_iff`
* `Verif.Catalog.chunked_same`
* `Verif.Catalog.chunks_size`
* `Verif.Catalog.propagate_direction`
* `Verif.Catalog.propagate_range`
* `Verif.Catalog.propagate_own_epoch`
* `Verif.Catalog.propagate_without`
* `Verif.Catalog.search_at_epoch`
* `Verif.Catalog.row_iff`
* `Verif.Catalog.parse_iff`
* `Verif.Catalog.parse_error`
* `Verif.Catalog.comments_ignored`
* `Verif.Catalog.columns_any_order`
* `Verif.Catalog.other_columns`
* `Verif.Catalog.written_iff`
* `Verif.Catalog.headerless_loses`
* `Verif.Catalog.nan_accepted`
* `Verif.Bodies.Isa.temperature_standard`
* `Verif.Bodies.Isa.pressure_hydrostatic`
* `Verif.Bodies.Isa.pressure_unique`
* `Verif.Bodies.Isa.pressure_altitude`
* `Verif.Bodies.Isa.altitude_pressure`
* `Verif.Bodies.Isa.pressure_decreases`
* `Verif.Bodies.Isa.geopotential_zero`
* `Verif.Bodies.Isa.geopotential_gravity`
* `Verif.Bodies.Isa.geometric_geopotential`
* `Verif.Bodies.Isa.geopotential_geometric`
* `Verif.Bodies.Isa.geopotential_range`
* `Verif.Bodies.Isa.geometric_too_low`
* `Verif.Bodies.track_moves`
* `Verif.Bodies.track_distance`
* `Verif.Bodies.track_keeps`
* `Verif.Bodies.track_epoch`
* `Verif.Bodies.track_stops`
* `Verif.Bodies.track_past_pole`
* `Verif.Bodies.albedo_spec`
* `Verif.Bodies.attenuation_magnitudes`
* `Verif.Bodies.attenuation_spec`
* `Verif.Bodies.radiance_fin`
* `Verif.Bodies.radiance_nan`
* `Verif.Bodies.radiance_infinite`
* `Verif.Bodies.radiance_fourth`
* `Verif.Bodies.naif_iff`
* `Verif.Bodies.planet_ids`
* `Verif.Bodies.pluto_barycenter`
* `Verif.Bodies.hyphen_unknown`
* `Verif.Bodies.comet_period`
* `Verif.MeanElements.kepler`
* `Verif.MeanElements.kepler_sound`
* `Verif.MeanElements.accept_iff`
* `Verif.MeanElements.reject_iff`
* `Verif.MeanElements.constants_published`
* `Verif.MeanElements.propagate_on_orbit`
* `Verif.MeanElements.anomaly`
* `Verif.MeanElements.state_on_orbit`
* `Verif.MeanElements.axis_cubed`
* `Verif.MeanElements.propagate_fails_iff`
* `Verif.MeanElements.at_epoch`
* `Verif.MeanElements.at_minutes`
* `Verif.MeanElements.motion_not_printed`
* `Verif.MeanElements.drag_raises`
* `Verif.MeanElements.models_of_1972`
* `Verif.Stellar.Props.threshold_exact`
* `Verif.Stellar.Props.threshold_pole`
* `Verif.Stellar.Props.params_altitude`
* `Verif.Stellar.Props.predict_exact`
* `Verif.Stellar.Props.predict_ends`
* `Verif.Stellar.Props.verdict_confirmed`
* `Verif.Stellar.Props.verdict_contradicted`
* `Verif.Stellar.Props.above_exact_partial`
* `Verif.Stellar.Props.uniform_exact`
* `Verif.Stellar.Props.short_visit_missed`
* `Verif.Stellar.Props.short_visit_example`
* `Verif.Place.Props.fixed_is_network`
* `Verif.Place.Props.fixed_compose`
* `Verif.Place.Props.fixed_spherical`
* `Verif.Place.Props.mean_to_ecliptic`
* `Verif.Place.Props.of_date_paths`
* `Verif.Place.Props.true_ecliptic`
* `Verif.Place.Props.true_label_wrong`
* `Verif.Place.Props.sun_place`
* `Verif.Place.Props.sun_longitude`
* `Verif.Place.Props.sun_against_network`
* `Verif.Place.Props.sun_equinox_off`
* `Verif.Place.Props.bias_equinox`
* `Verif.Provider.star_culminations`
* `Verif.Provider.culminations_any_body`
* `Verif.Provider.star_is_its_direction`
* `Verif.Provider.own_engine`
* `Verif.Provider.azimuth_extrema_exact`
* `Verif.Provider.azimuth_extrema_complete`
* `Verif.Provider.azimuth_extrema_sound`
* `Verif.Provider.body_azimuth_extrema`
* `Verif.Provider.zenith_passage_reported`
* `Verif.Provider.star_direction_agree`
* `Verif.Provider.default_policy`
* `Verif.Provider.empty_window`
* `Verif.Provider.periods_use_policy`
* `Verif.Provider.star_azimuth_drops_policy`
* `Verif.Provider.solar_system_policy_ignored`
* `Verif.Provider.tolerance_ignored`
* `Verif.Provider.others_do_not_show`
* `Verif.Boundary.altitude_in_radians`
* `Verif.Boundary.azimuth_not_in_degrees`
* `Verif.Boundary.culmination_records`
* `Verif.Boundary.extremum_records`
* `Verif.Boundary.phase_written`
* `Verif.Boundary.label_same`
* `Verif.Boundary.label_call_ends`
* `Verif.Boundary.label_call_hangs`
* `Verif.Boundary.phase_options_unchecked`
* `Verif.Boundary.subject_options_checked`
* `Verif.Targets.Props.created`
* `Verif.Targets.Props.refused`
* `Verif.Targets.Props.same_point`
* `Verif.Targets.Props.cartesian_payload`
* `Verif.Targets.Props.converted_place`
* `Verif.Targets.Props.motion_kept`
* `Verif.Targets.Props.motion_lost`
* `Verif.Targets.Props.library_motion`
* `Verif.Targets.Props.c_motion_lost`
* `Verif.Passband.Props.passband`
* `Verif.Passband.Props.loaded`
* `Verif.Passband.Props.johnson`
* `Verif.Passband.Props.passband_width`
* `Verif.Passband.Props.passband_mean`
* `Verif.Passband.Props.ozone_curve`
* `Verif.Elp.Props.series_close`
* `Verif.Elp.Props.series_exact`
* `Verif.Elp.Props.sums_close`
* `Verif.Elp.Props.moon_place`
* `Verif.Elp.Props.moon_distance`
* `Verif.Elp.Props.moon_at_epoch`
* `Verif.Elp.Props.laskar_turn`
* `Verif.Elp.Props.laskar_rigid`
* `Verif.Elp.Props.pluto_sums`
* `Verif.Elp.Props.pluto_place`
* `Verif.Elp.Props.pluto_distance`
* `Verif.Elp.Props.pluto_height`
* `Verif.OemXml.Props.read_complete`
* `Verif.OemXml.Props.infinite_read`
* `Verif.OemXml.Props.comment_splits`
* `Verif.OemXml.Props.read_document`
* `Verif.OemXml.Props.write_read`
* `Verif.OemXml.Props.write_read_plain`
* `Verif.OemXml.Props.name_truncated`
* `Verif.OemXml.Props.name_lost`
* `Verif.OemXml.Props.write_nothing`
* `Verif.CFrames.Props.cart_dir`
* `Verif.CFrames.Props.cart_pos`
* `Verif.CFrames.Props.sph_dir`
* `Verif.CFrames.Props.seen_dot`
* `Verif.CFrames.Props.seen_chain`
* `Verif.CFrames.Props.seen_self`
* `Verif.CFrames.Props.journey_direct`
* `Verif.CFrames.Props.horizon_stored`
* `Verif.CFrames.Props.c_and_library`
* `Verif.CFrames.Props.default_context`
* `Verif.CFrames.Props.cart_dir_with`
* `Verif.CFrames.Props.cart_pos_with`
* `Verif.CFrames.Props.model_matters`
* `Verif.CFrames.Props.date_matters`
* `Verif.CFrames.Props.horizon_right`
* `Verif.CFrames.Props.horizon_mixes`
* `Verif.COrbit.prepared_iff`
* `Verif.COrbit.refused`
* `Verif.COrbit.prepared_orbit`
* `Verif.COrbit.kepler_as_prepared`
* `Verif.COrbit.mean_orbit`
* `Verif.COrbit.conic_ellipse`
* `Verif.COrbit.conic_hyperbola`
* `Verif.COrbit.written_iff`
* `Verif.COrbit.open_orbit_panics`
* `Verif.COrbit.centre_ignored`
* `Verif.SunModel.fast_is_altitude`
* `Verif.SunModel.fast_bounded`
* `Verif.SunModel.day_state`
* `Verif.SunModel.fast_clock`
* `Verif.SunModel.fast_not_one_arcminute`
* `Verif.SunModel.quiet_day`
* `Verif.SunModel.prediction_exact`
* `Verif.Spk.Coverage.coverage_exact`
* `Verif.Spk.Coverage.window_excludes`
* `Verif.Spk.Coverage.window_single`
* `Verif.Daf.Bsp.picked_tables`
* `Verif.Daf.Bsp.pick_no_panic`
* `Verif.Daf.Bsp.frame_ignored`
* `Verif.Daf.Bsp.later_ignored`
* `Verif.CTle.written_lines`
* `Verif.CTle.parse_answer`
* `Verif.CTle.blanks_ignored`
* `Verif.CTle.not_utf8`
* `Verif.CTle.propagate_answer`
* `Verif.CTle.new_iff`
* `Verif.CTle.prepare_iff`
* `Verif.CTle.gravity_code`
* `Verif.CTle.set_released`
* `Verif.CTle.unknown_gravity_accepted`
* `Verif.CTle.second_model_is_first`
* `Verif.CTle.bad_angle_never_propagates`
* `Verif.CTle.read_range`
* `Verif.Handover.covariance_iff`
* `Verif.Handover.covariance_kept`
* `Verif.Handover.handover`
* `Verif.Handover.handover_is_batch`
* `Verif.Handover.stddevs_covariance`
* `Verif.StmCheck.scale_spec`
* `Verif.StmCheck.check_le_iff`
* `Verif.StmCheck.exact_is_zero`
* `Verif.StmCheck.check_error_iff`
* `Verif.StmCheck.steps_cover`
* `Verif.StmCheck.nan_is_perfect`
* `Verif.StmCheck.nan_matrix_is_perfect`
* `Verif.StmCheck.velocity_hidden`
* `Verif.CSky.null_outputs`
* `Verif.CSky.grid_contract`
* `Verif.CSky.grid_released_once`
* `Verif.CSky.uniform_cells`
* `Verif.CSky.unusable_accepted`
* `Verif.CSky.beyond_zenith`
* `Verif.CSky.rows_finite`
* `Verif.CSky.infinite_band`
* `Verif.Runtime.load_iff`
* `Verif.Runtime.fromBytes_eq`
* `Verif.Runtime.sun_answer`
* `Verif.Runtime.earth_answer`
* `Verif.Runtime.earth_from_sun_answer`
* `Verif.Runtime.earth_velocity_answer`
* `Verif.Runtime.moon_answer`
* `Verif.Runtime.queries_no_panic`
* `Verif.Runtime.useless_kernel_loads`
* `Verif.Runtime.earth_gap`
* `Verif.CTarget.Props.client_history`
* `Verif.CTarget.Props.nothing_leaks`
* `Verif.CTarget.Props.handles_differ`
* `Verif.CTarget.Props.build_verdict`
* `Verif.CTarget.Props.verdict_unique`
* `Verif.CTarget.Props.short_forms`
* `Verif.CEph.Props.load_call`
* `Verif.CEph.Props.load_unreadable`
* `Verif.CEph.Props.position_call`
* `Verif.CEph.Props.position_iff`
* `Verif.CEph.Props.position_refused`
* `Verif.CEph.Props.velocity_call`
* `Verif.CEph.Props.file_to_answer`
* `Verif.CEph.Props.guards`
* `Verif.CEph.Props.free_exact`
* `Verif.CEph.Props.refused_unique`
* `Verif.CEph.Props.needs_exists`
* `Verif.Naming.Props.lfn_columns`
* `Verif.Naming.Props.kinds_differ`
* `Verif.Naming.Props.product_names`
* `Verif.Naming.Props.sp3_is_lfn`
* `Verif.Naming.Props.observation_tag_short`
* `Verif.Naming.Props.widths_unchecked`
* `Verif.Sites.Props.degrees_code`
* `Verif.Sites.Props.degrees_total`
* `Verif.Sites.Props.radians_same`
* `Verif.Sites.Props.radians_dark`
* `Verif.Sites.Props.codes_ordered`
* `Verif.Sites.Props.search_thresholds`
* `Verif.Sites.Props.twilight_guard`
* `Verif.Sites.Props.not_a_number_is_dark`
* `Verif.Sites.Props.site_written`
* `Verif.Sites.Props.profile_disagrees`
* `Verif.Sites.Props.rayleigh_disagrees`
* `Verif.Sites.Props.mauna_kea_pressure`
* `Verif.SolarSystem.Props.planets_published`
* `Verif.SolarSystem.Props.well_formed`
* `Verif.SolarSystem.Props.orbits_nested`
* `Verif.SolarSystem.Props.prose`
* `Verif.SolarSystem.Props.planet_from_c`
* `Verif.SolarSystem.Props.third_law`
* `Verif.SolarSystem.Props.moon_inside_earth`
* `Verif.SolarSystem.Props.io_axis`
* `Verif.SolarSystem.Props.moon_periods`
* `Verif.SolarSystem.Props.lagrange_apart`
* `Verif.SolarSystem.Props.hale_bopp`
* `Verif.SolarSystem.Props.halley_1986`
* `Verif.SolarSystem.Props.halley_period`
* `Verif.SolarSystem.Props.sun_declination`
* `Verif.CStar.Props.client_history`
* `Verif.CStar.Props.every_call_answered`
* `Verif.CStar.Props.found_iff`
* `Verif.CStar.Props.constant_agrees`
* `Verif.Bracketing.fixed_step`
* `Verif.Bracketing.crossing_inside`
* `Verif.Bracketing.adaptive_step`
* `Verif.Bracketing.search_backward`
* `Verif.Bracketing.search_forward`
* `Verif.Bracketing.extrema_based`
* `Verif.Bracketing.one_pass`
* `Verif.Bracketing.no_step_no_end`
* `Verif.Bracketing.adaptive_no_more`
* `Verif.Bracketing.two_missed`
* `Verif.Bracketing.pass_missed`
