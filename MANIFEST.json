{
 "claims": [
  {
   "property": "C01",
   "status": "proved",
   "theorems": [
    "Verif.Sha256.Props.sha256_is_fips",
    "Verif.Sha256.Props.sha256_length_32"
   ],
   "note": "All of sha256/compress/padding; FIPS 180-4 spec written independently, constants defined from prime roots."
  },
  {
   "property": "C02",
   "status": "proved",
   "theorems": [
    "Verif.Sha256.Props.hex32_iff",
    "Verif.Sha256.Props.hex32_toHex",
    "Verif.Sha256.Props.toHex_lowercase",
    "Verif.Sha256.Props.gate_iff"
   ],
   "note": "Panics are modelled as none."
  },
  {
   "property": "C03",
   "status": "proved",
   "theorems": [
    "Verif.Tle.Props.checksum_accept_iff",
    "Verif.Tle.Props.checksum_accept_ascii",
    "Verif.Tle.Props.single_digit_corruption_detected"
   ],
   "note": "Acceptance iff for all Unicode strings; single-digit substitution at any column detected."
  },
  {
   "property": "C04",
   "status": "proved",
   "theorems": [
    "Verif.Tle.Props.alpha5_accepted_iff",
    "Verif.Tle.Props.alpha5_rejects",
    "Verif.Tle.Props.alpha5_field",
    "Verif.Tle.Props.alpha5_shape",
    "Verif.Tle.Props.alpha5_round_trip",
    "Verif.Tle.Props.alpha5_injective",
    "Verif.Tle.Props.alpha5_reader_range"
   ],
   "note": "Whole range 0..339999 and all fields."
  },
  {
   "property": "C05",
   "status": "proved",
   "theorems": [
    "Verif.Tle.Props.expand_year_unique",
    "Verif.Tle.Props.year_round_trip"
   ],
   "note": "Arithmetic over all two-digit years and all years 1957..2056."
  },
  {
   "property": "C06",
   "status": "partial",
   "theorems": [
    "Verif.Tle.Props.assumed_width_iff",
    "Verif.Tle.Props.assumed_round_trip_partial",
    "Verif.Tle.Props.assumed_overflow",
    "Verif.Tle.Props.assumed_rounding_overflow"
   ],
   "note": "Width characterised exactly; round trip for every value that fits. The full property is false: a mantissa rounding up to 1 is written with six digits and read back ten times too small (assumed_rounding_overflow)."
  },
  {
   "property": "C07",
   "status": "partial",
   "theorems": [
    "Verif.Tle.Props.tle_round_trip_partial",
    "Verif.Tle.Props.tle_bstar_overflow_rejected",
    "Verif.Tle.Props.tle_year_end_rejected"
   ],
   "note": "Round trip for every element set whose values fit their columns (exact rational arithmetic). The full property is false: values that do not fit, and epochs in the last 0.432 ms of a year, are written as text the reader rejects."
  },
  {
   "property": "C08",
   "status": "partial",
   "theorems": [
    "Verif.Tle.Props.parse_ascii_never_panics_partial",
    "Verif.Tle.Props.parse_panics_on_multibyte",
    "Verif.Tle.Props.validate_panics_on_multibyte"
   ],
   "note": "No panic for all pairs of ASCII lines; false for multi-byte text (witness)."
  },
  {
   "property": "C09",
   "status": "proved",
   "theorems": [
    "Verif.Adsb.Props.crc_is_remainder",
    "Verif.Adsb.Props.residue_zero_iff",
    "Verif.Adsb.Props.residue_zero_iff_parity",
    "Verif.Adsb.Props.burst_detected",
    "Verif.Adsb.Props.odd_errors_detected",
    "Verif.Adsb.Props.five_errors_detected"
   ],
   "note": "Generator polynomial from ICAO Annex 10; detection of 2- and 4-bit errors uses a kernel-checked table over all 112-bit positions."
  },
  {
   "property": "C10",
   "status": "proved",
   "theorems": [
    "Verif.Adsb.Props.parse_frame_iff",
    "Verif.Adsb.Props.parse_frame_total",
    "Verif.Adsb.Props.frame_accessors",
    "Verif.Adsb.Props.corrupted_text_rejected"
   ],
   "note": "All Unicode strings; bytes of multi-byte characters are never hexadecimal digits."
  },
  {
   "property": "C11",
   "status": "proved",
   "theorems": [
    "Verif.Adsb.Props.identification_iff",
    "Verif.Adsb.Props.identification_total",
    "Verif.Adsb.Props.callsign_round_trip",
    "Verif.Adsb.Props.sixBit_injective"
   ],
   "note": ""
  },
  {
   "property": "C12",
   "status": "proved",
   "theorems": [
    "Verif.Adsb.Props.altitude_decode",
    "Verif.Adsb.Props.altitude_round_trip",
    "Verif.Adsb.Props.altitude_injective",
    "Verif.Adsb.Props.position_fields"
   ],
   "note": "Metres as exact rationals."
  },
  {
   "property": "C13",
   "status": "partial",
   "theorems": [
    "Verif.Adsb.Props.velocity_decode_partial",
    "Verif.Adsb.Props.velocity_rejects",
    "Verif.Adsb.Props.velocity_no_information_decoded"
   ],
   "note": "The 'no information' half of the claim is false of the code: raw 0 is decoded as -1 unit (velocity_no_information_decoded). Proved for raw >= 1."
  },
  {
   "property": "C14",
   "status": "partial",
   "theorems": [
    "Verif.Adsb.Props.local_recovers_partial",
    "Verif.Adsb.Props.quantisation",
    "Verif.Adsb.Props.local_nearest",
    "Verif.Adsb.Props.zone_count",
    "Verif.Adsb.Props.local_wrong_at_87"
   ],
   "note": "False at quantised latitude exactly +-87 (local_wrong_at_87): the code counts one longitude zone where the standard has two. Proved everywhere else, over exact reals."
  },
  {
   "property": "C15",
   "status": "partial",
   "theorems": [
    "Verif.Adsb.Props.global_recovers_partial",
    "Verif.Adsb.Props.global_number",
    "Verif.Adsb.Props.global_nan_at_pole",
    "Verif.Adsb.Props.global_latitude_unchecked"
   ],
   "note": "False in the polar caps with the odd message last (NaN longitude) and for inconsistent pairs (latitude 180). Proved for all encodable positions otherwise, except quantised latitude +-87."
  },
  {
   "property": "C16",
   "status": "partial",
   "theorems": [
    "Verif.Event.Props.periods_wellformed_partial",
    "Verif.Event.Props.periods_can_overlap"
   ],
   "note": "False as stated: a sample exactly on the threshold yields overlapping periods (negation proved). Well-formedness proved for all functions when no sample is exactly on the threshold, roots lie in their brackets and are separated by the merge tolerance."
  },
  {
   "property": "C17",
   "status": "partial",
   "theorems": [
    "Verif.Event.Props.above_periods_exact_directed",
    "Verif.Event.Props.above_periods_exact_partial",
    "Verif.Event.Props.tangency_drops_period",
    "Verif.Event.Props.directed_terminates",
    "Verif.Event.Props.labelled_terminates"
   ],
   "note": "Proved end to end for the directed search; for the labelling search proved without tangential contacts and with crossings 2e-7 d apart. A tangency at the midpoint of a period drops it (negation proved)."
  },
  {
   "property": "C18",
   "status": "partial",
   "theorems": [
    "Verif.Event.Props.in_range_exact_directed",
    "Verif.Event.Props.in_range_exact_partial"
   ],
   "note": "Proved end to end for the directed range search, relative to a stated contract of the external period algebra (shown satisfiable); for the labelling search under the extra conditions of C17."
  },
  {
   "property": "C19",
   "status": "proved",
   "theorems": [
    "Verif.Event.Props.crossings_genuine",
    "Verif.Event.Props.plain_crossings_genuine",
    "Verif.Event.Props.plain_crossings_sorted"
   ],
   "note": "For every function and positive step."
  },
  {
   "property": "C20",
   "status": "partial",
   "theorems": [
    "Verif.Event.Props.no_sampled_sign_change_missed_partial",
    "Verif.Event.Props.exact_zero_sample_missed",
    "Verif.Event.Props.nonpositive_step_never_finishes"
   ],
   "note": "Strict sign changes are never missed; a sample exactly on the threshold is (negation proved); a non-positive step never finishes."
  },
  {
   "property": "C21",
   "status": "proved",
   "theorems": [
    "Verif.RootFinding.Props.bisection_sound",
    "Verif.RootFinding.Props.bisection_none_iff",
    "Verif.RootFinding.Props.brent_sound",
    "Verif.RootFinding.Props.brent_none_iff",
    "Verif.RootFinding.Props.brentTol_sound",
    "Verif.RootFinding.Props.brent_converges",
    "Verif.RootFinding.Props.bisection_near_zero",
    "Verif.RootFinding.Props.brent_near_zero"
   ],
   "note": "Exact ordered-field arithmetic; signum of zero arbitrary; NaN and rounding not modelled."
  },
  {
   "property": "C22",
   "status": "proved",
   "theorems": [
    "Verif.RootFinding.Props.minimize_in_interval",
    "Verif.RootFinding.Props.maximize_in_interval",
    "Verif.RootFinding.Props.minimize_accurate",
    "Verif.RootFinding.Props.maximize_accurate"
   ],
   "note": "Exact ordered-field arithmetic with the decimal constant PHI of the code (not the exact golden ratio)."
  },
  {
   "property": "C23",
   "status": "partial",
   "theorems": [
    "Verif.Daf.daf_self_pointer_never_finishes",
    "Verif.Daf.daf_hang_witness",
    "Verif.Daf.daf_panic_witness",
    "Verif.Daf.daf_parse_finishes_partial",
    "Verif.Daf.daf_hang_is_early"
   ],
   "note": "Claim is false of the code: a self-referencing record never finishes and a 2^54 pointer panics. Partial: it finishes whenever the reachable record pointers decrease in rank (forward chains)."
  },
  {
   "property": "C24",
   "status": "proved",
   "theorems": [
    "Verif.Daf.daf_reads_summaries",
    "Verif.Daf.daf_reads_spk_summaries",
    "Verif.Daf.daf_write_read"
   ],
   "note": "Every laid-out file, both byte orders, any ND/NI, any number of records."
  },
  {
   "property": "C25",
   "status": "partial",
   "theorems": [
    "Verif.Daf.spk_segment_no_panic",
    "Verif.Daf.spk_segment_debug_panic",
    "Verif.Daf.spk_segment_iff_layout",
    "Verif.Daf.spk_segment_table",
    "Verif.Daf.spk_index_segments",
    "Verif.Daf.spk_kernel_chebyshev_panics",
    "Verif.Daf.spk_kernel_chebyshev_no_panic_partial",
    "Verif.Daf.spk_kernel_chebyshev_table",
    "Verif.Daf.spk_kernel_discrete_panics",
    "Verif.Daf.spk_kernel_discrete_no_panic_partial",
    "Verif.Daf.spk_kernel_discrete_table",
    "Verif.Daf.spk_big_endian_words_reversed",
    "Verif.Daf.spk_big_endian_witness"
   ],
   "note": "spk.rs reader: never panics in release, accepts exactly the well-formed layouts and returns exactly the addressed words. False of the debug build for words -1,-1 and of the segment.rs readers, which have no bounds check; partial theorems give the condition."
  },
  {
   "property": "C26",
   "status": "proved",
   "theorems": [
    "Verif.Interp.Props.located_record_contains_epoch",
    "Verif.Interp.Props.locate_normalised",
    "Verif.Interp.Props.locate_outside",
    "Verif.Interp.Props.eval_no_panic",
    "Verif.Interp.Props.dyn_locates",
    "Verif.Interp.Props.dyn_outside",
    "Verif.Interp.Props.dyn_total"
   ],
   "note": "Both readers (segment.rs and eval.rs), exact arithmetic; normalised time bound for records that state their own interval."
  },
  {
   "property": "C27",
   "status": "proved",
   "theorems": [
    "Verif.Interp.Props.lagrange_reproduces_polynomial",
    "Verif.Interp.Props.lagrange_at_node",
    "Verif.Interp.Props.type9_at_tabulated_epoch",
    "Verif.Interp.Props.type9_reproduces_polynomial"
   ],
   "note": "Exact arithmetic; epochs further apart than f64::EPSILON as the code requires. Function level and whole segment level."
  },
  {
   "property": "C28",
   "status": "proved",
   "theorems": [
    "Verif.Interp.Props.hermite_reproduces_polynomial",
    "Verif.Interp.Props.hermite_osculates",
    "Verif.Interp.Props.type13_at_tabulated_epoch",
    "Verif.Interp.Props.type13_reproduces_polynomial"
   ],
   "note": "Exact arithmetic; arbitrary data at nodes and polynomial data everywhere."
  },
  {
   "property": "C29",
   "status": "proved",
   "theorems": [
    "Verif.Interp.Props.window_brackets",
    "Verif.Interp.Props.window_exists",
    "Verif.Interp.Props.window_outside",
    "Verif.Interp.Props.window_centred"
   ],
   "note": ""
  },
  {
   "property": "C30",
   "status": "proved",
   "theorems": [
    "Verif.Spk.Props.state_sound",
    "Verif.Spk.Props.state_finishes",
    "Verif.Spk.Props.state_never_panics"
   ],
   "note": "SpkKernel::state modelled (search, path, sum); epochs a linear order, states an additive group (exact arithmetic)."
  },
  {
   "property": "C31",
   "status": "partial",
   "theorems": [
    "Verif.Spk.Props.chain_found_iff",
    "Verif.Spk.Props.no_chain_iff",
    "Verif.Spk.Props.out_of_coverage_iff",
    "Verif.Spk.Props.covered_elsewhere",
    "Verif.Spk.Props.state_ok_iff",
    "Verif.Spk.Props.out_of_coverage_without_any_epoch",
    "Verif.Spk.Props.unsupported_segment_shadows_supported"
   ],
   "note": "Chain search complete and errors characterised exactly; the last half of the claim is false as stated: out-of-coverage is also reported when no epoch has a chain (witness), and a state can be refused because the chain found has an unsupported segment (witness)."
  },
  {
   "property": "C32",
   "status": "proved",
   "theorems": [
    "Verif.Spk.Props.state_is_difference",
    "Verif.Spk.Props.state_swap",
    "Verif.Spk.Props.state_triangle",
    "Verif.Spk.Props.state_self",
    "Verif.Spk.Props.geometric_is_difference",
    "Verif.Spk.Props.geometric_swap",
    "Verif.Spk.Props.planet_is_difference",
    "Verif.Spk.Props.fromSsb_sound",
    "Verif.Spk.Props.fromSsb_finishes",
    "Verif.Spk.Props.fromSsb_complete",
    "Verif.Spk.Props.geometric_finishes"
   ],
   "note": "SpkKernel::state and SpkKernelSet resolver (with Earth/Moon fallback), planet queries; resolver terminates on cyclic kernels and finds simple chains."
  },
  {
   "property": "C33",
   "status": "partial",
   "theorems": [
    "Verif.Spk.Props.edge_last_wins",
    "Verif.Spk.Props.ssb_last_wins",
    "Verif.Spk.Props.kernel_set_last_wins",
    "Verif.Spk.Props.kernel_set_ok_iff",
    "Verif.Spk.Props.kernel_first_in_file_wins",
    "Verif.Spk.Props.kernel_set_last_in_file_wins",
    "Verif.Spk.Props.kernel_set_does_not_chain_across_files"
   ],
   "note": "Holds for KernelSet (load order of kernels), SpkKernelSet and DynSegmentStack; false inside one file for SpkKernel, which takes the first covering segment (witness). KernelSet does not chain across kernels (witness)."
  },
  {
   "property": "C34",
   "status": "proved",
   "theorems": [
    "Verif.Spk.Props.mass_weighted_mean",
    "Verif.Spk.Props.moon_is_difference",
    "Verif.Spk.Props.heliocentric_is_difference",
    "Verif.Spk.Props.mass_weighted_mean_direct",
    "Verif.Spk.Props.velocity_mass_weighted_mean",
    "Verif.Spk.Props.fractions_sum",
    "Verif.Spk.Props.earth_segment_out_of_range_no_fallback"
   ],
   "note": "Frame and unit conversion an arbitrary linear map; with a direct Earth segment the mean is the barycenter only if the segment obeys the mass relation (stated). No fallback when the Earth segment is out of range (witness)."
  },
  {
   "property": "C35",
   "status": "partial",
   "theorems": [
    "Verif.TextKernel.Props.written_kernel_is_read_partial",
    "Verif.TextKernel.Props.parse_finishes",
    "Verif.TextKernel.Props.numbers_are_read",
    "Verif.TextKernel.Props.comments_removed",
    "Verif.TextKernel.Props.commented_line",
    "Verif.TextKernel.Props.string_over_lines",
    "Verif.TextKernel.Props.plus_equals_inside_string",
    "Verif.TextKernel.Props.comment_inside_string",
    "Verif.TextKernel.Props.doubled_quote_refused",
    "Verif.TextKernel.Props.fortran_exponent_is_text",
    "Verif.TextKernel.Props.value_on_next_line_refused",
    "Verif.TextKernel.Props.unfinished_statement_dropped"
   ],
   "note": "Every kernel written from assignments (any mix of scalars and arrays over any number of lines, = and +=, free text before) is read back. Missing: strings containing comment marks, their own quote or (in a replacement) '+=', which the code misreads: counterexamples proved."
  },
  {
   "property": "C36",
   "status": "partial",
   "theorems": [
    "Verif.TextKernel.Props.leap_lookup_partial",
    "Verif.TextKernel.Props.lsk_table_sorted",
    "Verif.TextKernel.Props.before_table_not_reported"
   ],
   "note": "Lookup proved for every table in any order. Instants before the table give 0 and are not reported (counterexample)."
  },
  {
   "property": "C37",
   "status": "proved",
   "theorems": [
    "Verif.TextKernel.Props.gregorian_jd_correct",
    "Verif.TextKernel.Props.epoch_text_read",
    "Verif.TextKernel.Props.gregorian_jd_fails_2100"
   ],
   "note": "All dates of 1901..2099; also the text form @YYYY-MON-D. Outside the range the code is wrong (2100-03-01)."
  },
  {
   "property": "C38",
   "status": "proved",
   "theorems": [
    "Verif.TextKernel.Props.et_roundtrip",
    "Verif.TextKernel.Props.ticks_roundtrip",
    "Verif.TextKernel.Props.before_clock_refused",
    "Verif.TextKernel.Props.overlapping_clock_not_inverted"
   ],
   "note": "Exact field arithmetic. Both directions; the exact condition on neighbours needed by each direction is a hypothesis, and its necessity is shown."
  },
  {
   "property": "C39",
   "status": "partial",
   "theorems": [
    "Verif.Frames.Props.pole_matrix_proper",
    "Verif.Frames.Props.pole_image",
    "Verif.Frames.Props.pole_correct_iff_partial",
    "Verif.Frames.Props.body_rotation_partial",
    "Verif.Frames.Props.meridian_image",
    "Verif.Frames.Props.pole_wrong"
   ],
   "note": "The matrix is always a proper rotation and carries the body pole to the direction of declination dec and right ascension MINUS ra: equal to the documented pole direction exactly when the two directions coincide (pole_correct_iff_partial). The full claim is false of the code: witness pole_wrong."
  },
  {
   "property": "C40",
   "status": "proved",
   "theorems": [
    "Verif.Frames.Props.frame_orthogonal",
    "Verif.Frames.Props.rotation_self",
    "Verif.Frames.Props.rotation_eq",
    "Verif.Frames.Props.rotations_compose",
    "Verif.Frames.Props.rotation_back",
    "Verif.Frames.Props.rotation_orthogonal",
    "Verif.Frames.Props.frame_fuel_mono",
    "Verif.Frames.Props.frame_relative",
    "Verif.Frames.Props.last_frame_wins"
   ],
   "note": "Hypothesis: loaded TK matrices are orthogonal (read from files without check)."
  },
  {
   "property": "C41",
   "status": "partial",
   "theorems": [
    "Verif.Frames.Props.diverges_iff",
    "Verif.Frames.Props.resolution_terminates_partial",
    "Verif.Frames.Props.cyclic_frames_diverge",
    "Verif.Frames.Props.radii_only_panics",
    "Verif.Frames.Props.no_panic"
   ],
   "note": "Resolution ends exactly when following the TK relatives ends; proved for acyclic tables. False in general: a pair of frames defined relative to each other recurses for ever; a PCK holding only radii panics."
  },
  {
   "property": "C42",
   "status": "partial",
   "theorems": [
    "Verif.Ck.Props.attitude_at_record",
    "Verif.Ck.Props.attitude_between",
    "Verif.Ck.Props.attitude_total",
    "Verif.Ck.Props.attitude_unit",
    "Verif.Ck.Props.slerp_unit",
    "Verif.Ck.Props.slerp_ends",
    "Verif.Ck.Props.slerp_uniform",
    "Verif.Ck.Props.normalize_idem",
    "Verif.Ck.Props.sign_irrelevant_partial",
    "Verif.Ck.Props.table_sign_irrelevant_partial",
    "Verif.Ck.Props.orthogonal_sign_matters",
    "Verif.Ck.Props.rotation_spec",
    "Verif.Ck.Props.shadowed_segment",
    "Verif.Ck.Props.records_sorted",
    "Verif.Ck.Props.linear_ok"
   ],
   "note": "Interpolation proved for all sorted tables; the independence of the stored sign fails exactly for orthogonal neighbours (orthogonal_sign_matters)."
  },
  {
   "property": "C43",
   "status": "partial",
   "theorems": [
    "Verif.Sky.Props.twilight_table",
    "Verif.Sky.Props.twilight_monotone",
    "Verif.Sky.Props.twilight_thresholds",
    "Verif.Sky.Props.twilight_nan",
    "Verif.Sky.Props.twilight_prose_wrong"
   ],
   "note": "Partition, order and thresholds follow the boundary table of the enum. The module prose contradicts the table at equality (twilight_prose_wrong), and NaN is classed as dark."
  },
  {
   "property": "C44",
   "status": "partial",
   "theorems": [
    "Verif.Sky.Props.label_total",
    "Verif.Sky.Props.label_iff_partial",
    "Verif.Sky.Props.label_order",
    "Verif.Sky.Props.label_centre",
    "Verif.Sky.Props.label_waxing",
    "Verif.Sky.Props.wide_window",
    "Verif.Sky.Props.large_elongation_never_finishes"
   ],
   "note": "Exact arithmetic. Labels are total and unique for every elongation; windows for half widths up to 45 degrees; wider settings let New Moon swallow other phases; with rounded subtraction the reduction loop does not end for a large elongation."
  },
  {
   "property": "C45",
   "status": "partial",
   "theorems": [
    "Verif.Sky.Props.phase_angle_correct",
    "Verif.Sky.Props.great_circle_angle",
    "Verif.Sky.Props.geocentric_correct",
    "Verif.Sky.Props.geocentric_range",
    "Verif.Sky.Props.fraction_ends",
    "Verif.Sky.Props.topocentric_range_partial",
    "Verif.Sky.Props.topocentric_full_turn"
   ],
   "note": "Real arithmetic. Geocentric part in full; the topocentric elongation can be a full turn in the code's formula (topocentric_full_turn)."
  },
  {
   "property": "C46",
   "status": "proved",
   "theorems": [
    "Verif.Sky.Props.arc_iff",
    "Verif.Sky.Props.range_test",
    "Verif.Sky.Props.wrapped_range_test",
    "Verif.Sky.Props.range_periods_exact_partial",
    "Verif.Sky.Props.wrapped_periods_exact_partial",
    "Verif.Sky.Props.long_arc_wrong"
   ],
   "note": "Real arithmetic; all arcs of at most a full turn, and the period search under the contract of the threshold search. Longer ranges (max - min > 360) are outside the statement and go wrong (long_arc_wrong)."
  },
  {
   "property": "C47",
   "status": "partial",
   "theorems": [
    "Verif.Sky.Props.crossing_bearing_partial",
    "Verif.Sky.Props.crossing_direction_partial",
    "Verif.Sky.Props.opposite_bearing_reported"
   ],
   "note": "The code does not filter the opposite bearing: refuted by opposite_bearing_reported; crossings are at the bearing or its opposite, directions are right at the bearing."
  },
  {
   "property": "C48",
   "status": "proved",
   "theorems": [
    "Verif.Sky.Props.unwrap_mod",
    "Verif.Sky.Props.unwrap_step",
    "Verif.Sky.Props.unwrap_true",
    "Verif.Sky.Props.unwrap_wrap",
    "Verif.Sky.Props.unwrap_history"
   ],
   "note": "Real arithmetic, all evaluation histories."
  },
  {
   "property": "C49",
   "status": "proved",
   "theorems": [
    "Verif.Ccsds.Props.iso_calendar",
    "Verif.Ccsds.Props.iso_round_trip",
    "Verif.Ccsds.Props.iso_read",
    "Verif.Ccsds.Props.iso_sixty_seconds",
    "Verif.Ccsds.Props.iso_negative_year",
    "Verif.Ccsds.Props.iso_accepts_nonsense"
   ],
   "note": "For all epochs from year 0 (Julian Date 1721059.5) up to 7e11: the printed calendar date is a valid Gregorian date and reading it back is within half a microsecond. Exact arithmetic. Findings: seconds may print as 60.000000; negative years cannot be read; the reader accepts impossible dates and NaN seconds."
  },
  {
   "property": "C50",
   "status": "partial",
   "theorems": [
    "Verif.Ccsds.Props.read_segments_partial",
    "Verif.Ccsds.Props.block_loses_single_segment",
    "Verif.Ccsds.Props.block_loses_second_segment",
    "Verif.Ccsds.Props.unfinished_block_accepted"
   ],
   "note": "Proved for all files without covariance and manoeuvre blocks. The full claim is false: for every file of one segment with a block the reader reports no segments; with two segments and a block the second is lost and the first duplicated."
  },
  {
   "property": "C51",
   "status": "proved",
   "theorems": [
    "Verif.Ccsds.Props.escape_no_markup",
    "Verif.Ccsds.Props.escape_round_trip"
   ],
   "note": "For all strings; unescape is an independent left-to-right entity decoder that fails on any ampersand not starting one of the four entities."
  },
  {
   "property": "C52",
   "status": "proved",
   "theorems": [
    "Verif.Sp3.Props.stream_equals_batch",
    "Verif.Sp3.Props.end_stays"
   ],
   "note": "For every input, including inputs that fail while being read: opening the stream and calling next_epoch to the end gives the record of read_sp3 or the same error; the end stays announced."
  },
  {
   "property": "C53",
   "status": "partial",
   "theorems": [
    "Verif.Rinex.Props.permissive_no_error",
    "Verif.Rinex.Props.no_header",
    "Verif.Rinex.Props.permissive_keeps_partial",
    "Verif.Rinex.Props.strict_exact_partial",
    "Verif.Rinex.Props.strict_no_panic_partial",
    "Verif.Rinex.Props.strict_then_permissive",
    "Verif.Rinex.Props.records_exist",
    "Verif.Rinex.Props.short_line_panics",
    "Verif.Rinex.Props.non_ascii_panics",
    "Verif.Rinex.Props.wrapped_numbers_accepted",
    "Verif.Rinex.Props.nonsense_seconds_are_zero",
    "Verif.Rinex.Props.strict_accepts_nonsense"
   ],
   "note": "no error for all texts; exact characterisation under stated conditions. The claim as stated is false of the code: short body lines and multi-byte characters panic, wrapped and nonsense epochs are accepted"
  },
  {
   "property": "C54",
   "status": "partial",
   "theorems": [
    "Verif.Rinex.Props.write_read_partial",
    "Verif.Rinex.Props.small_negative_clock_unreadable",
    "Verif.Rinex.Props.small_negative_clock_refused",
    "Verif.Rinex.Props.small_negative_clock_lost",
    "Verif.Rinex.Props.fraction_lost",
    "Verif.Rinex.Props.leap_second_unreadable",
    "Verif.Rinex.Props.three_digit_prn_unreadable",
    "Verif.Rinex.Props.precision_claim_false"
   ],
   "note": "proved for records that fit their columns; the claim is false of the code for small negative clock terms, non-finite fields, fractions of a second, leap seconds and three-digit satellites"
  },
  {
   "property": "C55",
   "status": "partial",
   "theorems": [
    "Verif.Sck.Props.parse_iff",
    "Verif.Sck.Props.parse_encode",
    "Verif.Sck.Props.parse_panic_iff",
    "Verif.Sck.Props.small_file_panics",
    "Verif.Sck.Props.parse_total_partial"
   ],
   "note": "parse_iff is the full acceptance and content claim for inputs below 2^63 bytes. That parsing never panics is false: a 64-byte file with a huge declared size overflows or aborts (small_file_panics); parse_panic_iff says exactly when."
  },
  {
   "property": "C56",
   "status": "partial",
   "theorems": [
    "Verif.Ffi.Props.codes_published",
    "Verif.Ffi.Props.decode_exact",
    "Verif.Ffi.Props.decode_injective",
    "Verif.Ffi.Props.names_round_trip",
    "Verif.Ffi.Props.names_sound",
    "Verif.Ffi.Props.status_codes",
    "Verif.Ffi.Props.unknown_codes_accepted",
    "Verif.Ffi.Props.hand_codes_round_trip",
    "Verif.Ffi.Props.params_round_trip_iff",
    "Verif.Ffi.Props.guard_total",
    "Verif.Ffi.Props.null_output",
    "Verif.Ffi.Props.write_out",
    "Verif.Ffi.Props.array_contract",
    "Verif.Ffi.Props.free_once",
    "Verif.Ffi.Props.client_history",
    "Verif.Ffi.Props.oem_contract",
    "Verif.Ffi.Props.handle_contract",
    "Verif.Ffi.Props.star_name_in_bounds",
    "Verif.Ffi.Props.search_failure_silent",
    "Verif.Ffi.Props.search_null_partial",
    "Verif.Ffi.Props.search_null_not_first",
    "Verif.Ffi.Props.search_success",
    "Verif.Ffi.Props.scalar_null_first"
   ],
   "note": "Proved: published codes, decoding exact and injective, names round-trip, null output, panic status, array contract, whole client histories, handles, name buffer, failure writes nothing. Violated: hand-decoded codes (orbit centre, gravity model, transfer branch) accept anything; search calls look at the output pointers last, so a null output can give another status; a custom gravitational parameter is lost."
  },
  {
   "property": "C57",
   "status": "partial",
   "theorems": [
    "Verif.Solar.Props.days_cover",
    "Verif.Solar.Props.days_finish",
    "Verif.Solar.Props.transit_in_day",
    "Verif.Solar.Props.transit_owner_processed",
    "Verif.Solar.Props.candidate_in_influence",
    "Verif.Solar.Props.candidate_answered",
    "Verif.Solar.Props.solar_crossings_genuine",
    "Verif.Solar.Props.solar_search_finishes",
    "Verif.Solar.Props.batch_eq_single",
    "Verif.Solar.Props.sunset_reported_as_sunrise",
    "Verif.Solar.Props.sunrise_reported_as_sunset",
    "Verif.Solar.Props.polar_day_reported_as_night",
    "Verif.Solar.Props.no_crossing_day_sees_three_samples",
    "Verif.Solar.Props.empty_window_gives_period"
   ],
   "note": "Coverage, contiguity, transit ownership, no skipped candidate, every candidate answered, nothing found is discarded, roots genuine, termination and batch = single are proved for all inputs. The claim as a whole fails: labels come from the prediction and are never checked (sunset reported as sunrise and vice versa when the window starts shortly after the predicted event of a short day or night), and days without predicted crossing are accepted on three samples (polar day reported as night)."
  },
  {
   "property": "C58",
   "status": "partial",
   "theorems": [
    "Verif.Naming.Props.short_name_spec",
    "Verif.Naming.Props.short_name_unique",
    "Verif.Naming.Props.short_name_unique_centres",
    "Verif.Naming.Props.before_gps_minus",
    "Verif.Naming.Props.token_three_iff",
    "Verif.Naming.Props.long_tokens",
    "Verif.Naming.Props.token_value",
    "Verif.Naming.Props.token_not_injective",
    "Verif.Naming.Props.lfn_injective",
    "Verif.Naming.Props.sp3_name_unique"
   ],
   "note": "Uniqueness is proved in full. Three characters holds exactly below 100 hours (token_three_iff); long_tokens is the violation."
  },
  {
   "property": "C59",
   "status": "proved",
   "theorems": [
    "Verif.Sky.Props.observer_orthogonal",
    "Verif.Sky.Props.horizontal_rotation",
    "Verif.Sky.Props.horizontal_range",
    "Verif.Sky.Props.star_rotation",
    "Verif.Sky.Props.equatorial_of_unit"
   ],
   "note": "Real arithmetic; atan2 as the argument of a complex number."
  },
  {
   "property": "C60",
   "status": "partial",
   "theorems": [
    "Verif.RootFinding.Props.extrema_terminates",
    "Verif.RootFinding.Props.extrema_sorted",
    "Verif.RootFinding.Props.extrema_sound",
    "Verif.RootFinding.Props.extrema_peak_found_partial",
    "Verif.RootFinding.Props.extrema_valley_found_partial",
    "Verif.RootFinding.Props.peak_in_first_step_missed"
   ],
   "note": "Peaks and valleys within one step of an end can be lost (peak_in_first_step_missed), so completeness is stated for those a step away from both ends."
  },
  {
   "property": "C61",
   "status": "proved",
   "theorems": [
    "Verif.Interp.Props.type2_velocity_is_derivative",
    "Verif.Interp.Props.dyn_velocity_is_derivative"
   ],
   "note": "Under the documented contract of the crate cheby (sum of c_k T_k and its derivative)."
  },
  {
   "property": "C62",
   "status": "proved",
   "theorems": [
    "Verif.Interp.Time.et_exists_unique",
    "Verif.Interp.Time.tt_to_et_accurate",
    "Verif.Interp.Time.tt_to_et_offset",
    "Verif.Interp.Time.et_strictly_increasing",
    "Verif.Interp.Time.tt_to_et_monotone"
   ],
   "note": "Exact real arithmetic."
  },
  {
   "property": "C63",
   "status": "proved",
   "theorems": [
    "Verif.Interp.Props.stack_selects_last"
   ],
   "note": ""
  },
  {
   "property": "C64",
   "status": "partial",
   "theorems": [
    "Verif.Frames.Props.pck_order_irrelevant",
    "Verif.Frames.Props.alias_order_matters"
   ],
   "note": "Proved for tables in which no two keys name the same constant; keys like BODY499_PM and BODY0499_PM are different variables naming the same constant and make the result order dependent (alias_order_matters)."
  },
  {
   "property": "C65",
   "status": "proved",
   "theorems": [
    "Verif.Sky.Props.phase_events_genuine",
    "Verif.Sky.Props.phase_events_residual",
    "Verif.Sky.Props.phase_event_found",
    "Verif.Sky.Props.angleDiff_spec",
    "Verif.Sky.Props.new_moon_example",
    "Verif.Sky.Props.sample_times",
    "Verif.Sky.Props.sample_never_finishes"
   ],
   "note": "Real arithmetic; root finder as a parameter with a residual contract."
  },
  {
   "property": "C66",
   "status": "proved",
   "theorems": [
    "Verif.Ccsds.Props.write_read",
    "Verif.Ccsds.Props.forged_metadata"
   ],
   "note": "All non-empty state lists with epochs from year 0, all names without line feed and outer white space (possibly empty). Finding: a name with a line feed forges other metadata."
  },
  {
   "property": "C67",
   "status": "proved",
   "theorems": [
    "Verif.Sp3.Props.read_sound",
    "Verif.Sp3.Props.read_no_panic",
    "Verif.Sp3.Props.nonsense_seconds_accepted",
    "Verif.Sp3.Props.rounding_up_second"
   ],
   "note": "For every input and every behaviour of the date library. Findings: negative and NaN seconds are read as second zero; a second whose fraction rounds up is refused or becomes a leap second."
  },
  {
   "property": "C68",
   "status": "partial",
   "theorems": [
    "Verif.Sp3.Props.write_read_partial",
    "Verif.Sp3.Props.nearly_sixty_unreadable",
    "Verif.Sp3.Props.leap_second_unreadable"
   ],
   "note": "Proved for times in multiples of ten nanoseconds outside leap seconds (date library as assumption Good, with an instance). The full claim is false: the last five nanoseconds of every minute and all leap seconds print as second 60, which the reader refuses, for every date."
  },
  {
   "property": "C69",
   "status": "partial",
   "theorems": [
    "Verif.Sck.Props.evaluate_first",
    "Verif.Sck.Props.evaluate_out",
    "Verif.Sck.Props.evaluate_malformed",
    "Verif.Sck.Props.fit_covers",
    "Verif.Sck.Props.short_block_never_ends",
    "Verif.Sck.Props.zero_radius_nan"
   ],
   "note": "Exact arithmetic. A block length lost in rounding makes the fit run for ever (short_block_never_ends); a record of radius zero evaluates to NaN (zero_radius_nan)."
  },
  {
   "property": "C70",
   "status": "partial",
   "theorems": [
    "Verif.Cpf.Props.read_iff_partial",
    "Verif.Cpf.Props.epoch_iff",
    "Verif.Cpf.Props.read_no_panic",
    "Verif.Cpf.Props.permissive_refuses",
    "Verif.Cpf.Props.huge_mjd_panics",
    "Verif.Cpf.Props.bad_seconds_are_midnight",
    "Verif.Cpf.Props.year_wraps"
   ],
   "note": "read_iff_partial for day numbers within i64/4 range and seconds that are numbers not below zero. Violations: permissive mode refuses a whole file for one bad second or date (permissive_refuses), huge days panic, years wrap, nonsense seconds are midnight."
  },
  {
   "property": "C71",
   "status": "partial",
   "theorems": [
    "Verif.Cpf.Props.write_read_partial",
    "Verif.Cpf.Props.write_read_all",
    "Verif.Cpf.Props.step_lost",
    "Verif.Cpf.Props.frame_lost",
    "Verif.Cpf.Props.late_time_unreadable"
   ],
   "note": "For header fields that are words, whole positive steps and times in whole milliseconds outside leap seconds. The rest is false: step_lost, frame_lost, late_time_unreadable."
  },
  {
   "property": "C72",
   "status": "partial",
   "theorems": [
    "Verif.Ffi.Props.shift_same_point",
    "Verif.Ffi.Props.shift_compose",
    "Verif.Ffi.Props.shift_invert",
    "Verif.Ffi.Props.transform_center_total",
    "Verif.Ffi.Props.transform_center_au_partial",
    "Verif.Ffi.Props.transform_center_units",
    "Verif.Ffi.Props.bodycentric_round_trip",
    "Verif.Ffi.Props.bodycentric_vector",
    "Verif.Ffi.Props.bodycentric_unit_lost",
    "Verif.Ffi.Props.unknown_orbit_center"
   ],
   "note": "Proved for au and documented codes: same point, compose, invert, body-centric round trip and vector. Violated: other units (the au offset is added to numbers in the other unit; the way back relabels them as au) and unknown orbit-centre codes."
  },
  {
   "property": "C73",
   "status": "partial",
   "theorems": [
    "Verif.Ffi.Props.frame_change_faithful",
    "Verif.Ffi.Props.horizontal_swapped",
    "Verif.Ffi.Props.horizontal_accepts_partial"
   ],
   "note": "Frame changes proved faithful. The three horizontal conversions are violated for all inputs: altitude and azimuth are exchanged."
  },
  {
   "property": "C74",
   "status": "partial",
   "theorems": [
    "Verif.Ffi.Props.dispatch_faithful_partial",
    "Verif.Ffi.Props.generic_target_motion_ignored",
    "Verif.Ffi.Props.icrs_subject_frame_ignored"
   ],
   "note": "Resolution to body, star, direction and target position proved. Violated: proper motion and epoch of a generic target, and the frame label of a direction, are ignored."
  },
  {
   "property": "C75",
   "status": "partial",
   "theorems": [
    "Verif.Search.Props.scan_always_finishes",
    "Verif.Search.Props.scan_crossings_genuine",
    "Verif.Search.Props.scan_sign_change_reported_partial",
    "Verif.Search.Props.scan_zero_sample_reported",
    "Verif.Search.Props.scan_loses_crossing"
   ],
   "note": "Termination, soundness, labels, separation and zero samples proved for every signal. A sampled change of side is reported provided brent_f64 answers on that cell; the unconditional claim is false: scan_loses_crossing gives a continuous piecewise linear signal of opposite sign at the two ends of a ten-minute cell on which, in exact arithmetic and with the default tolerances, brent_f64 gives up after 100 iterations and the scan reports nothing. Side condition Fine: float spacing small against the time tolerance."
  },
  {
   "property": "C76",
   "status": "partial",
   "theorems": [
    "Verif.Search.Props.search_always_finishes",
    "Verif.Search.Props.search_crossings_genuine",
    "Verif.Search.Props.search_sign_change_reported_partial",
    "Verif.Search.Props.search_not_empty_partial",
    "Verif.Search.Props.search_loses_crossing"
   ],
   "note": "Termination, soundness and labels proved for every behaviour of the fitting crate. A change of side over a segment is reported provided brent_f64 answers; without that the claim is false: search_loses_crossing (public configuration, a fit that fails, exact arithmetic) ends with no crossing although the signal starts and ends on different sides. Two changes inside one segment depend on the fit and are not claimed."
  },
  {
   "property": "C77",
   "status": "partial",
   "theorems": [
    "Verif.Altitude.crossings_finish",
    "Verif.Altitude.angle_of_sin",
    "Verif.Altitude.altitude_crossings_genuine",
    "Verif.Altitude.threshold_reflected",
    "Verif.Altitude.above_hundred_degrees"
   ],
   "note": "Termination, soundness and labels proved for thresholds within ±90°. Finding: a threshold beyond 90° is silently reflected (180°-h answers like h), so a target at 85° is reported above 100°."
  },
  {
   "property": "C78",
   "status": "partial",
   "theorems": [
    "Verif.Altitude.below_is_complement",
    "Verif.Altitude.band_is_difference",
    "Verif.Altitude.empty_window",
    "Verif.Altitude.above_periods_partial",
    "Verif.Altitude.above_periods_overlap",
    "Verif.Altitude.short_passage_lost"
   ],
   "note": "Complement, band and empty window proved; periods well formed when labels alternate (above_periods_partial). Findings: three crossings within 86 s get the same label and overlapping periods; a passage shorter than 86 s is lost."
  },
  {
   "property": "C79",
   "status": "proved",
   "theorems": [
    "Verif.Moon.nutation_always_answers",
    "Verif.Moon.nutation_interpolated",
    "Verif.Moon.nutation_fallback",
    "Verif.Moon.nutation_accurate",
    "Verif.Moon.pos_get",
    "Verif.Moon.position_always_answers",
    "Verif.Moon.position_accurate"
   ],
   "note": "Exact arithmetic; saturation of float-to-usize casts at 2^64 not modelled; accuracy of the fit (Fits) and curvature of the series (Curved) are hypotheses."
  },
  {
   "property": "C80",
   "status": "proved",
   "theorems": [
    "Verif.Moon.sin_altitudeOf",
    "Verif.Moon.altitude_error",
    "Verif.Moon.nutation_identity",
    "Verif.Moon.cached_always_answers",
    "Verif.Moon.cached_close_to_direct"
   ],
   "note": "Precession distance preserving, sidereal time Lipschitz in the nutation angles, models as parameters."
  },
  {
   "property": "C81",
   "status": "proved",
   "theorems": [
    "Verif.Orbit.kepler_is_orbit",
    "Verif.Orbit.with_mu_is_orbit",
    "Verif.Orbit.mean_motion_is_orbit"
   ],
   "note": "Contract of the Kepler solver: residual at most tau. Real arithmetic."
  },
  {
   "property": "C82",
   "status": "proved",
   "theorems": [
    "Verif.Orbit.conic_elliptic_is_orbit",
    "Verif.Orbit.conic_hyperbolic_is_orbit",
    "Verif.Orbit.parabola_refused"
   ],
   "note": "Hyperbolic solver taken as exact when it answers."
  },
  {
   "property": "C83",
   "status": "partial",
   "theorems": [
    "Verif.Orbit.elements_validated",
    "Verif.Orbit.validated_never_panics",
    "Verif.Orbit.try_from_accepts_hyperbola"
   ],
   "note": "Checked constructors proved; finding: TryFrom<KeplerianOrbit> (and Deserialize) accept hyperbolas whose propagation then panics."
  },
  {
   "property": "C84",
   "status": "partial",
   "theorems": [
    "Verif.Orbit.prepared_eq_direct",
    "Verif.Orbit.solar_constants_agree",
    "Verif.Orbit.c_geocentric_uses_sun"
   ],
   "note": "Rust paths proved to agree; finding: the C functions use the Sun's parameter for geocentric orbits."
  },
  {
   "property": "C85",
   "status": "proved",
   "theorems": [
    "Verif.Star.space_motion_straight",
    "Verif.Star.space_motion_fails_iff",
    "Verif.Star.star_straight"
   ],
   "note": "Real arithmetic; a year of the velocity is qtty's year of 365.2425 days."
  },
  {
   "property": "C86",
   "status": "partial",
   "theorems": [
    "Verif.Star.convention_irrelevant",
    "Verif.Star.static_star",
    "Verif.Star.linear_rates",
    "Verif.Star.catalogue_epoch_ignored",
    "Verif.Star.track_ignores_motion",
    "Verif.Star.mixed_years",
    "Verif.Star.radial_mixed_years"
   ],
   "note": "Convention independence, static stars and linear rates proved; findings: the entry's epoch is ignored, tracking and altitude searches ignore proper motion, and years of 365.2425 and 365.25 days are mixed."
  },
  {
   "property": "C87",
   "status": "partial",
   "theorems": [
    "Verif.Estimation.add_row_accepts",
    "Verif.Estimation.add_row_only",
    "Verif.Estimation.solve_minimises",
    "Verif.Estimation.solve_fails_iff",
    "Verif.Estimation.add_row_panics",
    "Verif.Estimation.rejected_row_spoils"
   ],
   "note": "Minimality, covariance and observability proved; findings: an index out of range panics instead of the documented error when the first index is valid, and a rejected row leaves the accumulator spoiled."
  },
  {
   "property": "C88",
   "status": "proved",
   "theorems": [
    "Verif.Estimation.covariance_valid",
    "Verif.Estimation.update_optimal",
    "Verif.Estimation.predict_cov",
    "Verif.Estimation.update_fails_iff",
    "Verif.Estimation.filter_is_least_squares",
    "Verif.Estimation.filter_order_irrelevant"
   ],
   "note": "Exact arithmetic; covariance storage of affn taken as a symmetric matrix."
  },
  {
   "property": "C89",
   "status": "partial",
   "theorems": [
    "Verif.Estimation.gauss_newton_report",
    "Verif.Estimation.linear_converges",
    "Verif.Estimation.perfect_fit_never_converges",
    "Verif.Estimation.zero_tolerance_never_converges"
   ],
   "note": "Meaning of a report and convergence for noisy linear problems proved; findings: with an exact fit convergence is never reported (tol_chi2_rel up to 1), and zero tolerances, which are accepted, never converge."
  },
  {
   "property": "C90",
   "status": "proved",
   "theorems": [
    "Verif.Pod.Props.noise_matrix",
    "Verif.Pod.Props.noise_covariance",
    "Verif.Pod.Props.noise_dimension",
    "Verif.Pod.Props.noise_cut",
    "Verif.Pod.Props.noise_test"
   ],
   "note": ""
  },
  {
   "property": "C91",
   "status": "partial",
   "theorems": [
    "Verif.Pod.Props.markov_variance",
    "Verif.Pod.Props.backward_variance",
    "Verif.Pod.Props.schedule",
    "Verif.Pod.Props.schedule_total"
   ],
   "note": "violated: the variance for a negative step is negative and no error is returned (backward_variance); the rest is proved"
  },
  {
   "property": "C92",
   "status": "partial",
   "theorems": [
    "Verif.Pod.Props.sub_steps",
    "Verif.Pod.Props.cumulative_stm",
    "Verif.Pod.Props.arc_exists",
    "Verif.Pod.Props.parameter_column",
    "Verif.Pod.Props.column_difference",
    "Verif.Pod.Props.zero_column_difference"
   ],
   "note": "proved except the documented value for a zero reference column, which the code does not return (zero_column_difference)"
  },
  {
   "property": "C93",
   "status": "proved",
   "theorems": [
    "Verif.Pod.Props.statistics",
    "Verif.Pod.Props.statistics_consistent",
    "Verif.Pod.Props.grouped"
   ],
   "note": ""
  },
  {
   "property": "C94",
   "status": "partial",
   "theorems": [
    "Verif.Pod.Props.comparison_rms",
    "Verif.Pod.Props.comparison_panics",
    "Verif.Pod.Props.comparison_total"
   ],
   "note": "violated: a reference state without a local frame makes the comparison panic (comparison_panics); the rest is proved"
  },
  {
   "property": "C95",
   "status": "partial",
   "theorems": [
    "Verif.Pod.Props.thrust_force",
    "Verif.Pod.Props.thrust_accepted",
    "Verif.Pod.Props.ledger_balances",
    "Verif.Pod.Props.ledger_entry",
    "Verif.Pod.Props.ledger_rocket",
    "Verif.Pod.Props.negative_thrust"
   ],
   "note": "violated for a negative thrust magnitude, which the constructor accepts (negative_thrust); the rest is proved"
  },
  {
   "property": "C96",
   "status": "proved",
   "theorems": [
    "Verif.Pod.Props.displaced_range",
    "Verif.Pod.Props.shifts_commute",
    "Verif.Pod.Props.shapiro_correction"
   ],
   "note": ""
  },
  {
   "property": "C97",
   "status": "partial",
   "theorems": [
    "Verif.Pod.Props.code_phase",
    "Verif.Pod.Props.two_frequencies",
    "Verif.Pod.Props.delays_positive",
    "Verif.Pod.Props.broadcast_ionosphere",
    "Verif.Pod.Props.relativistic_clock_wrong",
    "Verif.Pod.Props.earth_rotation",
    "Verif.Pod.Props.rotation_counted_twice"
   ],
   "note": "violated: the relativistic clock term has the wrong sign (relativistic_clock_wrong) and the rotation of the Earth during the signal's flight is added to positions that already contain it (rotation_counted_twice); the rest is proved"
  },
  {
   "property": "C98",
   "status": "partial",
   "theorems": [
    "Verif.Pod.Props.laser_corrections",
    "Verif.Pod.Props.laser_residual",
    "Verif.Pod.Props.laser_ignores_state",
    "Verif.Pod.Props.batch_residuals",
    "Verif.Pod.Props.batch_append",
    "Verif.Pod.Props.batch_never_ok",
    "Verif.Pod.Props.batch_tolerance_void"
   ],
   "note": "violated: the laser residual ignores the state, residuals_at_epoch never returns a residual and the epoch tolerance is void"
  },
  {
   "property": "C99",
   "status": "proved",
   "theorems": [
    "Verif.Pod.Props.periodic"
   ],
   "note": ""
  },
  {
   "property": "C100",
   "status": "partial",
   "theorems": [
    "Verif.Earth.Props.earth_rotation_angle",
    "Verif.Earth.Props.earth_rotation_split",
    "Verif.Earth.Props.earth_rotation_single",
    "Verif.Earth.Props.earth_rotation_rate",
    "Verif.Earth.Props.mean_sidereal_time",
    "Verif.Earth.Props.apparent_sidereal_time",
    "Verif.Earth.Props.complementary_terms",
    "Verif.Earth.Props.complementary_terms_small",
    "Verif.Earth.Props.teme_sidereal",
    "Verif.Earth.Props.ut1_refined",
    "Verif.Earth.Props.ut1_counted_twice",
    "Verif.Earth.Props.utc_accurate"
   ],
   "note": "violated only for UT1 without a loaded bundle, where UT1-UTC is added twice (ut1_counted_twice); the angles and the iteration for UTC are proved"
  },
  {
   "property": "C101",
   "status": "partial",
   "theorems": [
    "Verif.Earth.Props.frames_consistent",
    "Verif.Earth.Props.frames_consistent_offsets",
    "Verif.Earth.Props.inertial_frames_consistent",
    "Verif.Earth.Props.rotation_back",
    "Verif.Earth.Props.frames_connected",
    "Verif.Earth.Props.offsets_lost"
   ],
   "note": "violated with observed celestial pole offsets, which the paths through the mean equator drop (offsets_lost); proved for all paths without offsets and for all paths avoiding those steps"
  },
  {
   "property": "C102",
   "status": "partial",
   "theorems": [
    "Verif.Earth.Props.intermediate_pole",
    "Verif.Earth.Props.intermediate_matrix",
    "Verif.Earth.Props.intermediate_pole_missed",
    "Verif.Earth.Props.intermediate_pole_error",
    "Verif.Earth.Props.intermediate_fixed_pole",
    "Verif.Earth.Props.true_and_intermediate_pole",
    "Verif.Earth.Props.precession_angles",
    "Verif.Earth.Props.pole_corrections"
   ],
   "note": "violated: the intermediate matrix has the signs of X and Y reversed in its third row and so misses the pole (intermediate_pole_missed, true_and_intermediate_pole)"
  },
  {
   "property": "C103",
   "status": "proved",
   "theorems": [
    "Verif.Earth.Props.ecliptic_nutation",
    "Verif.Earth.Props.ecliptic_longitude",
    "Verif.Earth.Props.ecliptic_paths"
   ],
   "note": "the functions of precession.rs; the typed helper to_ecliptic_of_date uses the mean matrix for a type named true (see DESIGN)"
  },
  {
   "property": "C104",
   "status": "partial",
   "theorems": [
    "Verif.Earth.Props.polar_motion_pole",
    "Verif.Earth.Props.terrestrial_pole",
    "Verif.Earth.Props.polar_motion_order"
   ],
   "note": "violated: the factors are in the opposite order to the cited routine (polar_motion_order); the pole's place is right"
  },
  {
   "property": "C105",
   "status": "partial",
   "theorems": [
    "Verif.Earth.Props.topocentric_back",
    "Verif.Earth.Props.site_distance",
    "Verif.Earth.Props.frame_turns_east",
    "Verif.Earth.Props.site_turns_west",
    "Verif.Earth.Props.site_contradicts_frame",
    "Verif.Earth.Props.diurnal_velocity_reversed"
   ],
   "note": "violated: the site conversion turns westward (site_turns_west), contradicts the frame rotation (site_contradicts_frame) and the velocity is opposite to its motion (diurnal_velocity_reversed)"
  },
  {
   "property": "C106",
   "status": "partial",
   "theorems": [
    "Verif.Earth.Props.fk4_rotation",
    "Verif.Earth.Props.galactic_rotation",
    "Verif.Earth.Props.galactic_inverted"
   ],
   "note": "violated: the Galactic matrix is the inverse of what it should be and one element is wrong in the tenth decimal (galactic_inverted, galactic_rotation)"
  },
  {
   "property": "C107",
   "status": "partial",
   "theorems": [
    "Verif.Mission.occultation_partial",
    "Verif.Mission.occultation_range",
    "Verif.Mission.eclipse_classes_partial",
    "Verif.Mission.umbra_sound",
    "Verif.Mission.eclipse_sound",
    "Verif.Mission.shadow_missed",
    "Verif.Mission.farther_body_hides"
   ],
   "note": "Fraction = covered part of plane discs; no false eclipse or umbra. Fails in the code: the angular radius is atan(r/d), so a low satellite deep in shadow is reported in sunlight; a body beyond the target counts as hiding it."
  },
  {
   "property": "C108",
   "status": "proved",
   "theorems": [
    "Verif.Mission.obstructed_iff",
    "Verif.Mission.obstructed_symm",
    "Verif.Mission.obstructed_mono"
   ],
   "note": ""
  },
  {
   "property": "C109",
   "status": "partial",
   "theorems": [
    "Verif.Mission.local_basis",
    "Verif.Mission.azel_direction",
    "Verif.Mission.range_and_rate",
    "Verif.Mission.pointing_partial",
    "Verif.Mission.zenith_not_ninety",
    "Verif.Mission.status_always_clear",
    "Verif.Mission.clear_through_body"
   ],
   "note": "Angles, range, rate and light time proved. Fails in the code: the pointing (degrees) is given radians, and the status is always Clear."
  },
  {
   "property": "C110",
   "status": "partial",
   "theorems": [
    "Verif.Mission.mask_profile",
    "Verif.Mission.horizon_unique",
    "Verif.Mission.mask_sample",
    "Verif.Mission.mask_bounds",
    "Verif.Mission.clears_profile",
    "Verif.Mission.mask_empty",
    "Verif.Mission.mask_unsorted"
   ],
   "note": "Proved for distinct azimuths of one turn. Fails in the code outside one turn: samples are sorted before they are reduced."
  },
  {
   "property": "C111",
   "status": "proved",
   "theorems": [
    "Verif.Mission.beta_elevation",
    "Verif.Mission.beta_plane",
    "Verif.Mission.solar_time",
    "Verif.Mission.ltan_solar_time"
   ],
   "note": ""
  },
  {
   "property": "C112",
   "status": "proved",
   "theorems": [
    "Verif.Mission.cone_contains",
    "Verif.Mission.rectangle_sound"
   ],
   "note": ""
  },
  {
   "property": "C113",
   "status": "proved",
   "theorems": [
    "Verif.Apparent.aberration_lorentz",
    "Verif.Apparent.aberration_unit",
    "Verif.Apparent.aberration_cosine",
    "Verif.Apparent.aberration_towards",
    "Verif.Apparent.aberration_undone",
    "Verif.Apparent.velocity_roundtrip",
    "Verif.Apparent.position_roundtrip"
   ],
   "note": "Exact: the aberrated direction is the boosted wave vector; unit, addition law, towards the apex, undone by removal; positions keep distance. Real arithmetic; speed of light and Earth velocity are parameters."
  },
  {
   "property": "C114",
   "status": "proved",
   "theorems": [
    "Verif.Apparent.deflection_angle",
    "Verif.Apparent.deflection_unit",
    "Verif.Apparent.deflection_none",
    "Verif.Apparent.deflection_behind",
    "Verif.Apparent.full_chain",
    "Verif.Apparent.planet_scale",
    "Verif.Apparent.solar_constant",
    "Verif.Apparent.magnitude_first_order",
    "Verif.Apparent.right_angle_magnitude",
    "Verif.Apparent.inverse_angle",
    "Verif.Apparent.inverse_error"
   ],
   "note": "Exact angle of the deflected star on the great circle, unit length, the degenerate cases, constants, the magnitude and a bound on the error of the approximate inverse."
  },
  {
   "property": "C115",
   "status": "partial",
   "theorems": [
    "Verif.Apparent.contains_iff",
    "Verif.Apparent.union_least",
    "Verif.Apparent.contains_antisymm",
    "Verif.Apparent.contains_trans",
    "Verif.Apparent.stage_in_union",
    "Verif.Apparent.apparent_stages",
    "Verif.Apparent.report_stages",
    "Verif.Apparent.report_within",
    "Verif.Apparent.report_outside",
    "Verif.Apparent.order_matters"
   ],
   "note": "Policy algebra and reports proved. Findings: record does not enforce the documented subset of the request; the canonical order applies aberration before deflection, which does not commute with the order of the cited references."
  },
  {
   "property": "C116",
   "status": "partial",
   "theorems": [
    "Verif.Apparent.star_altitude",
    "Verif.Apparent.star_horizontal",
    "Verif.Apparent.policies_indistinct",
    "Verif.Apparent.apparent_without_aberration",
    "Verif.Apparent.geometric_mixes"
   ],
   "note": "Geometry of altitude and azimuth proved for every policy but GEOMETRIC. Findings: all policies other than GEOMETRIC are indistinguishable and none applies aberration; GEOMETRIC mixes the catalogue place with sidereal time of date."
  },
  {
   "property": "C117",
   "status": "partial",
   "theorems": [
    "Verif.Grid.len_exact",
    "Verif.Grid.cells_ordered",
    "Verif.Grid.altitude_range",
    "Verif.Grid.azimuth_range",
    "Verif.Grid.cells_tile",
    "Verif.Grid.solid_total",
    "Verif.Grid.solid_error",
    "Verif.Grid.equal_cells",
    "Verif.Grid.azimuth_overflow",
    "Verif.Grid.overlap_total",
    "Verif.Grid.coverage_gap",
    "Verif.Grid.weighted_spec",
    "Verif.Grid.equal_area_grid"
   ],
   "note": "Count, order, altitude range and the exact sum of solid angles hold for every grid with the stated divisibility; for azimuth steps that do not divide the circle the code points outside [0,360), overlaps (144 degrees) or leaves gaps (250 degrees): proved as findings."
  },
  {
   "property": "C118",
   "status": "proved",
   "theorems": [
    "Verif.Forces.battin_tidal",
    "Verif.Forces.battin_degenerate",
    "Verif.Forces.third_body_sum",
    "Verif.Forces.third_body_errors",
    "Verif.Forces.third_body_order",
    "Verif.Forces.bodies_placed",
    "Verif.Forces.sun_moon"
   ],
   "note": "Real arithmetic. Ephemeris values and the ecliptic rotation are parameters (rotation preserves lengths)."
  },
  {
   "property": "C119",
   "status": "partial",
   "theorems": [
    "Verif.Forces.exponential_profile",
    "Verif.Forces.table_interpolates",
    "Verif.Forces.table_nodes",
    "Verif.Forces.table_decreasing",
    "Verif.Forces.drag_law",
    "Verif.Forces.drag_dissipates",
    "Verif.Forces.drag_errors",
    "Verif.Forces.drag_above",
    "Verif.Forces.constant_below_surface",
    "Verif.Forces.no_extrapolation_below",
    "Verif.Forces.tilted_rotation_ignored"
   ],
   "note": "Proved: exponential and tabulated profiles, drag law, dissipation, errors, altitude used. Findings: ConstantDensity never refuses, no extrapolation below the table although documented, first two components of the rotation vector ignored."
  },
  {
   "property": "C120",
   "status": "proved",
   "theorems": [
    "Verif.Forces.cylindrical_exact",
    "Verif.Forces.lit_eq",
    "Verif.Forces.conical_eq",
    "Verif.Forces.conical_covered",
    "Verif.Forces.umbra_exact",
    "Verif.Forces.light_exact",
    "Verif.Forces.srp_law",
    "Verif.Forces.srp_errors",
    "Verif.Forces.light_factors"
   ],
   "note": "Real arithmetic; the penumbra value is exact for plane discs of the angular radii (as in the code), umbra and full light are exact for balls in space."
  },
  {
   "property": "C121",
   "status": "partial",
   "theorems": [
    "Verif.Forces.relativity_eq",
    "Verif.Forces.relativity_circular",
    "Verif.Forces.relativity_symmetry",
    "Verif.Forces.empirical_components",
    "Verif.Forces.geopotential_turns",
    "Verif.Forces.geopotential_errors",
    "Verif.Forces.low_degree",
    "Verif.Forces.two_body_coefficients"
   ],
   "note": "Proved for the modelled functions; the spherical-harmonic kernel is a parameter. The Earth rotation angle is evaluated at the TT instead of the UT1 date (DESIGN.md)."
  },
  {
   "property": "C122",
   "status": "proved",
   "theorems": [
    "Verif.Forces.altitude_distance",
    "Verif.Forces.altitude_turn"
   ],
   "note": "Real arithmetic, exterior points."
  },
  {
   "property": "C123",
   "status": "proved",
   "theorems": [
    "Verif.Forces.spacecraft_accepted",
    "Verif.Forces.spacecraft_rejected",
    "Verif.Forces.adapter_step",
    "Verif.Forces.adapter_errors"
   ],
   "note": "RK4 itself (crate principia) is a parameter."
  },
  {
   "property": "C124",
   "status": "partial",
   "theorems": [
    "Verif.Kvn.Props.opm_reads",
    "Verif.Kvn.Props.opm_round_trip",
    "Verif.Kvn.Props.fixed_exact",
    "Verif.Kvn.Props.opm_lossless_iff",
    "Verif.Kvn.Props.opm_lenient",
    "Verif.Kvn.Props.opm_refusal_named"
   ],
   "note": "Reading is characterised for every text (iff, no panic). The round trip holds for strings, and for numbers to half a unit of the last printed decimal; the promise that it is lossless is false (opm_lossless_iff: a velocity component survives only if it is a multiple of 1e-6 km/s)."
  },
  {
   "property": "C125",
   "status": "partial",
   "theorems": [
    "Verif.Kvn.Props.tdm_reads",
    "Verif.Kvn.Props.tdm_rejects",
    "Verif.Kvn.Props.tdm_round_trip",
    "Verif.Kvn.Props.integrated_relabelled",
    "Verif.Kvn.Props.segments_merged",
    "Verif.Kvn.Props.placement_lost",
    "Verif.Kvn.Props.standard_refused",
    "Verif.Kvn.Props.tdm_lenient"
   ],
   "note": "Reading is characterised for every sequence of blocks and the round trip is exact for canonical messages. Fails where the program fails: DOPPLER_INTEGRATED is written back as DOPPLER_INSTANTANEOUS, the attribution of observations to segments is lost, and the lines of the standard (keyword = epoch value, separated by a blank) are refused."
  },
  {
   "property": "C126",
   "status": "partial",
   "theorems": [
    "Verif.Igs.Props.orbex_reads",
    "Verif.Igs.Props.mem_splits",
    "Verif.Igs.Props.header_epoch",
    "Verif.Igs.Props.plainYo_ok",
    "Verif.Igs.Props.sample_orbex",
    "Verif.Igs.Props.orbex_permissive_refuses",
    "Verif.Igs.Props.orbex_bad_epochs",
    "Verif.Igs.Props.orbex_blocks_ignored",
    "Verif.Igs.Props.orbex_calendar_headers"
   ],
   "note": "Full characterisation of the reader in both modes for every text; header epochs under the contract YoOk for the date library (met by plainYo). The claim about errors in strict mode only, about bad epochs and about the published header layout fails in the program (negations proved)."
  },
  {
   "property": "C127",
   "status": "partial",
   "theorems": [
    "Verif.Igs.Props.sinex_reads",
    "Verif.Igs.Props.sinex_values_stated",
    "Verif.Igs.Props.sinex_one_solution",
    "Verif.Igs.Props.sinex_epoch",
    "Verif.Igs.Props.sinex_pivot",
    "Verif.Igs.Props.sample_sinex",
    "Verif.Igs.Props.sinex_mixed",
    "Verif.Igs.Props.sinex_one_per_code",
    "Verif.Igs.Props.sinex_epochs_silent",
    "Verif.Igs.Props.sinex_epoch_shape"
   ],
   "note": "Full characterisation of the reader for every text and map order: the last value of each type per station code. That the values belong to one solution holds where the code has one (sinex_one_solution) and fails otherwise (sinex_mixed, sinex_one_per_code); years 51-79 are read a century late, bad epochs are silent, a huge year panics."
  },
  {
   "property": "C128",
   "status": "partial",
   "theorems": [
    "Verif.Igs.Props.antex_round_trip",
    "Verif.Igs.Props.antex_canonical",
    "Verif.Igs.Props.antenna_canonical",
    "Verif.Igs.Props.antex_sorted",
    "Verif.Igs.Props.pco_fits",
    "Verif.Igs.Props.antex_losses",
    "Verif.Igs.Props.antex_not_exact"
   ],
   "note": "Round trip for names and codes that fit and offsets below 100 m, to half a hundredth of a millimetre; canonical output. The documented exactness is false (antex_losses, antex_not_exact)."
  },
  {
   "property": "C129",
   "status": "partial",
   "theorems": [
    "Verif.Omm.Props.kvn_reads",
    "Verif.Omm.Props.xml_reads",
    "Verif.Omm.Props.malformed_drag_zero",
    "Verif.Omm.Props.zone_dropped"
   ],
   "note": "Proved as an equivalence with a separate specification for both forms. Refuted part: a malformed optional number is not an error (kvn.rs 79 promises OmmMalformed), it reads as zero; the zone of an epoch is dropped."
  },
  {
   "property": "C130",
   "status": "partial",
   "theorems": [
    "Verif.Omm.Props.kvn_round_trip",
    "Verif.Omm.Props.kvn_exact",
    "Verif.Omm.Props.xml_round_trip",
    "Verif.Omm.Props.xml_exact",
    "Verif.Omm.Props.unescape_escape",
    "Verif.Omm.Props.json_reads",
    "Verif.Omm.Props.json_round_trip",
    "Verif.Omm.Props.writers_fail",
    "Verif.Omm.Props.kvn_large_refused",
    "Verif.Omm.Props.xml_large_refused"
   ],
   "note": "Proved for catalogue numbers below 100000 in the text forms and for all numbers in the JSON record. Refuted part: six-digit catalogue numbers are written in the text forms and refused on reading."
  },
  {
   "property": "C131",
   "status": "proved",
   "theorems": [
    "Verif.Omm.Props.contract_expand",
    "Verif.Omm.Props.expand_year",
    "Verif.Omm.Props.expand_contract",
    "Verif.Omm.Props.tle_round_trip",
    "Verif.Omm.Props.omm_round_trip"
   ],
   "note": "Designators are ASCII; an example shows a designator outside ASCII that is not restored."
  },
  {
   "property": "C132",
   "status": "proved",
   "theorems": [
    "Verif.Omm.Props.builder_ok",
    "Verif.Omm.Props.builder_err"
   ],
   "note": "Any sequence of calls."
  },
  {
   "property": "C133",
   "status": "partial",
   "theorems": [
    "Verif.Eop.Props.interpolate_inside",
    "Verif.Eop.Props.interpolate_before",
    "Verif.Eop.Props.interpolate_after",
    "Verif.Eop.Props.interpolate_total",
    "Verif.Eop.Props.interpolate_sorted",
    "Verif.Eop.Props.interpolate_node",
    "Verif.Eop.Props.chord_bounds",
    "Verif.Eop.Props.leap_second_smeared"
   ],
   "note": "Proved for every table and epoch over any ordered field. Fails in one respect: leap_second_smeared proves that across a leap second UT1-UTC is off by the elapsed fraction of the day, up to a second."
  },
  {
   "property": "C134",
   "status": "partial",
   "theorems": [
    "Verif.Eop.Props.read_data_line",
    "Verif.Eop.Props.read_file",
    "Verif.Eop.Props.bad_field_is_zero"
   ],
   "note": "Reading proved for all files of comments, headings and data lines. Fails in one respect: bad_field_is_zero proves that an unreadable column becomes zero without any report."
  },
  {
   "property": "C135",
   "status": "partial",
   "theorems": [
    "Verif.Eop.Props.iers_inside",
    "Verif.Eop.Props.iers_outside",
    "Verif.Eop.Props.iers_fabricates",
    "Verif.Eop.Props.context_fabricates",
    "Verif.Eop.Props.iers_missing_is_zero",
    "Verif.Eop.Props.ut1_from_utc",
    "Verif.Eop.Props.iers_len",
    "Verif.Eop.Props.iers_empty",
    "Verif.Eop.Props.context_values"
   ],
   "note": "Values inside coverage and the error outside are proved. The documented promise fails: iers_fabricates and context_fabricates prove that eop_at answers zeros outside coverage; missing columns inside coverage also become zeros."
  },
  {
   "property": "C136",
   "status": "partial",
   "theorems": [
    "Verif.Atmosphere.Props.airmass_grows",
    "Verif.Atmosphere.Props.airmass_zenith",
    "Verif.Atmosphere.Props.airmass_zenith_exact",
    "Verif.Atmosphere.Props.airmass_horizon",
    "Verif.Atmosphere.Props.airmass_le_secant",
    "Verif.Atmosphere.Props.airmass_near_secant",
    "Verif.Atmosphere.Props.airmass_below_horizon"
   ],
   "note": "Proved for all four formulas above the horizon. Below it the code returns mirrored or negative air masses (airmass_below_horizon)."
  },
  {
   "property": "C137",
   "status": "partial",
   "theorems": [
    "Verif.Atmosphere.Props.transmission_fraction",
    "Verif.Atmosphere.Props.transmission_composes",
    "Verif.Atmosphere.Props.transmission_magnitudes",
    "Verif.Atmosphere.Props.transmission_falls",
    "Verif.Atmosphere.Props.rayleigh_pos",
    "Verif.Atmosphere.Props.rayleigh_falls",
    "Verif.Atmosphere.Props.rayleigh_law",
    "Verif.Atmosphere.Props.rayleigh_negative",
    "Verif.Atmosphere.Props.altitude_twice",
    "Verif.Atmosphere.Props.paranal_too_clear",
    "Verif.Atmosphere.Props.mie_law",
    "Verif.Atmosphere.Props.profile_splits",
    "Verif.Atmosphere.Props.preset_transmission",
    "Verif.Atmosphere.Props.preset_values"
   ],
   "note": "Laws proved. Two respects fail: altitude_twice and paranal_too_clear prove that the observer's altitude is taken off twice (station pressure and exponential factor); rayleigh_negative proves negative depths below 115 nm."
  },
  {
   "property": "C138",
   "status": "proved",
   "theorems": [
    "Verif.Atmosphere.Props.vanRhijn_domain",
    "Verif.Atmosphere.Props.vanRhijn_never_inf",
    "Verif.Atmosphere.Props.vanRhijn_crossing",
    "Verif.Atmosphere.Props.vanRhijn_path",
    "Verif.Atmosphere.Props.pathTo_ends",
    "Verif.Atmosphere.Props.vanRhijn_shape",
    "Verif.Atmosphere.Props.vanRhijn_earth",
    "Verif.Atmosphere.Props.phase_normalised",
    "Verif.Atmosphere.Props.phase_shape"
   ],
   "note": "Geometry proved in any real inner product space; normalisation as an interval integral over the polar angle."
  },
  {
   "property": "C139",
   "status": "proved",
   "theorems": [
    "Verif.Crd.Props.permissive_reads",
    "Verif.Crd.Props.strict_reads",
    "Verif.Crd.Props.strict_refuses",
    "Verif.Crd.Props.refusal_names"
   ],
   "note": "The specification takes each line as its tag and fields; missing or unreadable integers count as 0, as the code has it. Errors are compared by line number."
  },
  {
   "property": "C140",
   "status": "partial",
   "theorems": [
    "Verif.Crd.Props.epoch_of_day",
    "Verif.Crd.Props.epoch_past_midnight",
    "Verif.Crd.Props.point_range",
    "Verif.Crd.Props.midnight_goes_back",
    "Verif.Crd.Props.return_rate_is_peak"
   ],
   "note": "Instant and range are proved for times below 86400 s that do not round up to a full second. It fails beyond: no epoch from 86400 s, points after midnight dated a day early, and the return rate is the peak; bin size is never set."
  },
  {
   "property": "C141",
   "status": "partial",
   "theorems": [
    "Verif.Obs.Props.write_read_partial",
    "Verif.Obs.Props.sixty_refused",
    "Verif.Obs.Props.sixty_file",
    "Verif.Obs.Props.wide_value_cut",
    "Verif.Obs.Props.undeclared_lost",
    "Verif.Obs.Props.long_marker"
   ],
   "note": "Round trip proved for all contents that fit the columns (any number of codes, epochs, satellites). For other contents the code changes or loses values: a second that rounds to 60 makes the written file unreadable, a wide value is cut and takes the next one with it, values of a system without code list vanish, a marker over 60 bytes is cut or stops the program."
  },
  {
   "property": "C142",
   "status": "partial",
   "theorems": [
    "Verif.Obs.Props.write_canonical",
    "Verif.Obs.Props.ascii_never_panics",
    "Verif.Obs.Props.other_text_panics",
    "Verif.Obs.Props.events_read_as_satellites",
    "Verif.Obs.Props.large_count_swallows"
   ],
   "note": "Canonical output proved for all contents; no panic proved for all ASCII texts. Other text can panic (a multi-byte character over a column limit), event records are read as satellites, and a count one too large swallows the file."
  },
  {
   "property": "C143",
   "status": "partial",
   "theorems": [
    "Verif.Doris.Props.doris_reads",
    "Verif.Doris.Props.mjd_correct",
    "Verif.Doris.Props.continuation_lost",
    "Verif.Doris.Props.stale_epoch",
    "Verif.Doris.Props.bad_dates_read",
    "Verif.Doris.Props.empty_record_twice",
    "Verif.Doris.Props.doris_panics",
    "Verif.Doris.Props.doris_crlf"
   ],
   "note": "Reading proved for every ASCII file (years other than i32::MIN), and the epoch equals the Modified Julian Date for every valid date. Not as claimed: continuation lines are dropped, an epoch line that is too short leaves the epoch before in force, non-numeric or impossible date fields still give a time, a record without measurements is kept and also counted, non-ASCII text panics."
  },
  {
   "property": "C144",
   "status": "proved",
   "theorems": [
    "Verif.Doris.Props.sidecar_reads",
    "Verif.Doris.Props.sidecar_refuses",
    "Verif.Doris.Props.names_back"
   ],
   "note": "Accepted exactly when all lines are good; the first bad line is named; lists of names come back."
  },
  {
   "property": "C145",
   "status": "partial",
   "theorems": [
    "Verif.Lagrange.Props.linear_unique",
    "Verif.Lagrange.Props.linear_singular",
    "Verif.Lagrange.Props.line_search_descends",
    "Verif.Lagrange.Props.no_descent_full_step",
    "Verif.Lagrange.Props.solver_answers",
    "Verif.Lagrange.Props.gives_up_only",
    "Verif.Lagrange.Props.jacobian_affine",
    "Verif.Lagrange.Props.affine_one_step",
    "Verif.Lagrange.Props.threshold_is_loose",
    "Verif.Lagrange.Props.line_made"
   ],
   "note": "Everything claimed is proved. Partial because of findings: when no trial step lowers the residual the full step is taken (the guard alpha <= 1/4096 is never reached), and a point is also accepted on the fixed threshold 1e-6 km/s², a sixth of the solar attraction."
  },
  {
   "property": "C146",
   "status": "proved",
   "theorems": [
    "Verif.Lagrange.Props.frame_made",
    "Verif.Lagrange.Props.frame_new",
    "Verif.Lagrange.Props.frame_errors",
    "Verif.Lagrange.Props.seeds_placed",
    "Verif.Lagrange.Props.triangles",
    "Verif.Lagrange.Props.triangle_residual",
    "Verif.Lagrange.Props.triangles_equilibria"
   ],
   "note": "Real arithmetic; gravitational constants and the ephemeris are parameters."
  },
  {
   "property": "C147",
   "status": "partial",
   "theorems": [
    "Verif.Lagrange.Props.records_value",
    "Verif.Lagrange.Props.records_outside",
    "Verif.Lagrange.Props.records_malformed",
    "Verif.Lagrange.Props.fit_covers",
    "Verif.Lagrange.Props.fit_refuses",
    "Verif.Lagrange.Props.fit_through_nodes",
    "Verif.Lagrange.Props.fit_accepted",
    "Verif.Lagrange.Props.fit_statistics",
    "Verif.Lagrange.Props.past_end_refused",
    "Verif.Lagrange.Props.last_not_best"
   ],
   "note": "Everything claimed is proved under the contract of the interpolation crate. Partial because of findings: a validation date up to 1e-9 s past the end makes every fit fail, and the error reported as best is the one of the last order tried."
  },
  {
   "property": "C148",
   "status": "partial",
   "theorems": [
    "Verif.Series.Props.value_close",
    "Verif.Series.Props.value_exact",
    "Verif.Series.Props.position_exact",
    "Verif.Series.Props.velocity_close",
    "Verif.Series.Props.velocity_exact",
    "Verif.Series.Props.both_agrees",
    "Verif.Series.Props.position_velocity_agrees",
    "Verif.Series.Props.tables_distinct",
    "Verif.Series.Props.moon_is_barycentre"
   ],
   "note": "Everything claimed is proved, in real arithmetic with the lane functions as parameters. Partial because of a finding: Moon::vsop87a evaluates the tables of the Earth-Moon barycentre (moon_is_barycentre)."
  },
  {
   "property": "C149",
   "status": "partial",
   "theorems": [
    "Verif.Series.Props.nut00a_series",
    "Verif.Series.Props.nut00b_series",
    "Verif.Series.Props.nut06a_scales",
    "Verif.Series.Props.model_choice",
    "Verif.Series.Props.nut00a_bounded",
    "Verif.Series.Props.longitude_reverse",
    "Verif.Series.Props.latitude_argument_differs",
    "Verif.Series.Props.latitude_argument_wrong"
   ],
   "note": "Proved with the coefficients of the code. Partial because the argument of latitude F has a tenth of the fourth-order coefficient of the conventions (0.000000417 for 0.00000417), unlike faf03 in era.rs (latitude_argument_differs, latitude_argument_wrong)."
  },
  {
   "property": "C150",
   "status": "proved",
   "theorems": [
    "Verif.Series.Props.moon_series",
    "Verif.Series.Props.moon_ranges",
    "Verif.Series.Props.moon_direction",
    "Verif.Series.Props.equatorial_direction"
   ],
   "note": "Real arithmetic; mean obliquity is a parameter."
  },
  {
   "property": "C151",
   "status": "partial",
   "theorems": [
    "Verif.Kernels.Props.fk_read",
    "Verif.Kernels.Props.fk_written",
    "Verif.Kernels.Props.fk_lookup",
    "Verif.Kernels.Props.fk_missing",
    "Verif.Kernels.Props.order_irrelevant",
    "Verif.Kernels.Props.written_rotation",
    "Verif.Kernels.Props.fk_alias_refused",
    "Verif.Kernels.Props.fk_fraction_cut",
    "Verif.Kernels.Props.fk_spec_case",
    "Verif.Kernels.Props.fk_no_matrix"
   ],
   "note": "Proved for all texts; missing: identifiers written with a sign or leading zeros are refused although the variables are there (fk_alias_refused), a fractional class is cut (fk_fraction_cut), the specification is compared case-sensitively (fk_spec_case)."
  },
  {
   "property": "C152",
   "status": "partial",
   "theorems": [
    "Verif.Kernels.Props.ik_read",
    "Verif.Kernels.Props.sclk_read",
    "Verif.Kernels.Props.ik_lookup",
    "Verif.Kernels.Props.order_irrelevant",
    "Verif.Kernels.Props.ik_boresight_ignored",
    "Verif.Kernels.Props.ik_units_ignored"
   ],
   "note": "Proved for all texts; a boresight that is not numeric is passed over while an angle is refused, and the unit of the angles is not looked at."
  },
  {
   "property": "C153",
   "status": "partial",
   "theorems": [
    "Verif.Kernels.Props.load_extends",
    "Verif.Kernels.Props.registry_invariant",
    "Verif.Kernels.Props.text_load_ok",
    "Verif.Kernels.Props.unknown_text_accepted",
    "Verif.Kernels.Props.binary_refused_unchanged",
    "Verif.Kernels.Props.lsk_agrees",
    "Verif.Kernels.Props.failed_load_kept",
    "Verif.Kernels.Props.undetected_kinds",
    "Verif.Kernels.Props.detection",
    "Verif.Kernels.Props.binary_load"
   ],
   "note": "Everything proved except the last clause, which is false: a text refused for its frames leaves its leap seconds in force (failed_load_kept). Also, kinds without the detected variables are accepted and ignored (undetected_kinds)."
  },
  {
   "property": "C154",
   "status": "proved",
   "theorems": [
    "Verif.Centers.shift_is_difference",
    "Verif.Centers.shift_exists",
    "Verif.Centers.journeys_agree",
    "Verif.Centers.journey_rigid",
    "Verif.Centers.order_irrelevant",
    "Verif.Centers.planets_ignore_ephemeris",
    "Verif.Centers.planets_mix_sources",
    "Verif.Centers.transform_eq_to_with"
   ],
   "note": "Exact arithmetic; ephemeris, series and libration points are parameters. Assumes no celestial-pole offsets (see C101). planets_ignore_ephemeris and planets_mix_sources record that planets never come from the ephemeris of the context."
  },
  {
   "property": "C155",
   "status": "partial",
   "theorems": [
    "Verif.Centers.body_frames_consistent",
    "Verif.Centers.iau_unique",
    "Verif.Centers.passive_right_oriented",
    "Verif.Centers.active_left_inverse",
    "Verif.Centers.other_readings_misplace_pole",
    "Verif.Centers.angles_published"
   ],
   "note": "Consistency and uniqueness proved for any proper Euler rotation. from_euler_zxz lives in an absent crate: of its four readings only one gives the IAU orientation; with active rotations read left to right the matrix is the inverse."
  },
  {
   "property": "C156",
   "status": "proved",
   "theorems": [
    "Verif.Horizon.converted_azimuth",
    "Verif.Horizon.conversions_compose",
    "Verif.Horizon.shorthands",
    "Verif.Horizon.conversions_keep"
   ],
   "note": "Exact real arithmetic; rem_euclid modelled as reduction to [0,360)."
  },
  {
   "property": "C157",
   "status": "proved",
   "theorems": [
    "Verif.Horizon.to_horizontal_axes",
    "Verif.Horizon.to_equatorial_axes",
    "Verif.Horizon.horizontal_roundtrip",
    "Verif.Horizon.horizontal_position"
   ],
   "note": "Exact real arithmetic; sidereal time and site angles are parameters (covered elsewhere)."
  },
  {
   "property": "C158",
   "status": "partial",
   "theorems": [
    "Verif.Horizon.mean_to_horizontal",
    "Verif.Horizon.second_axis_disagrees",
    "Verif.Horizon.mean_azimuth",
    "Verif.Horizon.mean_azimuth_mirrored",
    "Verif.Horizon.mean_roundtrip",
    "Verif.Horizon.mean_pole_undefined"
   ],
   "note": "The full statement is false of the code: the cartesian second axis is west, spherical azimuths are mirrored, and the inverse is 0/0 at the Earth's poles and for targets at a celestial pole. Proved: what the conversion gives, the round trip elsewhere, and the disagreements."
  },
  {
   "property": "C159",
   "status": "proved",
   "theorems": [
    "Verif.Horizon.apparent_seen",
    "Verif.Horizon.apparent_roundtrip"
   ],
   "note": "The frame change is any linear isometry (C101 shows that the rotations of the code are); exact real arithmetic."
  },
  {
   "property": "C160",
   "status": "partial",
   "theorems": [
    "Verif.Product.sp3_product",
    "Verif.Product.oem_product",
    "Verif.Product.refused_product_erases_file"
   ],
   "note": "Both read back within the resolution of the columns (SP3, OEM). False in part: an OEM product writer truncates the file before the writer refuses an empty series, so the previous product is lost (refused_product_erases_file)."
  },
  {
   "property": "C161",
   "status": "partial",
   "theorems": [
    "Verif.Product.sp3_header_fixed",
    "Verif.Product.sp3_header_same",
    "Verif.Product.sp3_count_column"
   ],
   "note": "False of the code: the header is a constant apart from the count and satellite list (sp3_header_same): 2024-01-01 0h GPS, interval 900 s, IGS20; the count is written outside its columns (sp3_count_column). sp3_header_fixed says what a reader gets from it."
  },
  {
   "property": "C162",
   "status": "partial",
   "theorems": [
    "Verif.Product.csv_rows",
    "Verif.Product.csv_unquoted",
    "Verif.Product.parquet_rows"
   ],
   "note": "Rows and columns are exact when names contain no separator or line break (csv_rows; parquet_rows without restriction). False for other names: fields are not quoted, so a name can forge a row (csv_unquoted)."
  },
  {
   "property": "C163",
   "status": "partial",
   "theorems": [
    "Verif.Product.canonical",
    "Verif.Product.canonical_idempotent",
    "Verif.Product.json_order_free",
    "Verif.Product.json_order_kept"
   ],
   "note": "Order-free and idempotent when no two entries share kind and path (canonical, canonical_idempotent, json_order_free). Entries sharing both keep their order of arrival, so the JSON then depends on it (json_order_kept)."
  },
  {
   "property": "C164",
   "status": "proved",
   "theorems": [
    "Verif.Assembly.registry_history",
    "Verif.Assembly.build_ok_iff",
    "Verif.Assembly.build_error_iff",
    "Verif.Assembly.builtin_makes"
   ],
   "note": "For any registration history, any embedding of built-in models."
  },
  {
   "property": "C165",
   "status": "proved",
   "theorems": [
    "Verif.Assembly.config_builds",
    "Verif.Assembly.custom_registration",
    "Verif.Assembly.default_config",
    "Verif.Assembly.oblateness_twice"
   ],
   "note": "config_builds for every configuration; default_config and oblateness_twice record that the default configuration with harmonics switched on keeps the separate J2 term (twice the oblateness if the harmonics contain it)."
  },
  {
   "property": "C166",
   "status": "partial",
   "theorems": [
    "Verif.Assembly.checks_total",
    "Verif.Assembly.symmetric_iff",
    "Verif.Assembly.symmetric_error",
    "Verif.Assembly.diagonal_iff",
    "Verif.Assembly.diagonal_error",
    "Verif.Assembly.semidefinite_accepted",
    "Verif.Assembly.nan_covariance_accepted"
   ],
   "note": "Exact for matrices of numbers (symmetric_iff, symmetric_error, diagonal_iff, diagonal_error, semidefinite_accepted), total for all inputs (checks_total). False for NaN: such matrices pass both checks (nan_covariance_accepted)."
  },
  {
   "property": "C167",
   "status": "proved",
   "theorems": [
    "Verif.Assembly.index_of"
   ],
   "note": ""
  },
  {
   "property": "C168",
   "status": "proved",
   "theorems": [
    "Verif.Assembly.steps_cover",
    "Verif.Assembly.predict_error_le",
    "Verif.Assembly.predict_error_zero"
   ],
   "note": "Exact arithmetic; the propagator is an arbitrary flow."
  },
  {
   "property": "C169",
   "status": "proved",
   "theorems": [
    "Verif.Handles.handles_refine",
    "Verif.Handles.no_leak",
    "Verif.Handles.alloc_exists"
   ],
   "note": "Refinement of the real heap operations to a table of values, by induction over programs; allocator contract limited to finitely many live values and shown satisfiable."
  },
  {
   "property": "C170",
   "status": "proved",
   "theorems": [
    "Verif.Handles.state_reads_back",
    "Verif.Handles.value_kept",
    "Verif.Handles.attached_kept",
    "Verif.Handles.propagate_fresh",
    "Verif.Handles.meaning_shape"
   ],
   "note": "For all programs."
  },
  {
   "property": "C171",
   "status": "partial",
   "theorems": [
    "Verif.Handles.density_iff",
    "Verif.Handles.coefficient_iff",
    "Verif.Handles.coefficient_error_cut",
    "Verif.Handles.gravity_accepted_iff"
   ],
   "note": "Proved for densities, constants and coefficients below degree 65536; above that the error names another coefficient (coefficient_error_cut)."
  },
  {
   "property": "C172",
   "status": "partial",
   "theorems": [
    "Verif.Handles.providers_unused"
   ],
   "note": "Refuted under the recorded contract that the two-body force model does not read its context: leaving out all attaching calls changes nothing else a client sees."
  },
  {
   "property": "C173",
   "status": "proved",
   "theorems": [
    "Verif.Handles.labels_true",
    "Verif.Handles.vsop_answer",
    "Verif.Handles.status_codes"
   ],
   "note": "Whole tables and all arguments."
  },
  {
   "property": "C174",
   "status": "partial",
   "theorems": [
    "Verif.Catalog.cone_complete",
    "Verif.Catalog.cone_exact_same_dec",
    "Verif.Catalog.haversine_short",
    "Verif.Catalog.cone_bound",
    "Verif.Catalog.cone_meridian",
    "Verif.Catalog.cone_false_hits",
    "Verif.Catalog.search_complete",
    "Verif.Catalog.search_sound"
   ],
   "note": "Completeness is proved for every cone (cone_complete, search_complete), results are an ordered part of the catalogue, and the test is exact at equal declination. Soundness is refuted: the code takes (sin Δδ / 2)² for sin²(Δδ/2), so stars far outside the cone are reported (cone_false_hits); cone_bound gives the exact guarantee that remains."
  },
  {
   "property": "C175",
   "status": "proved",
   "theorems": [
    "Verif.Catalog.passes_iff",
    "Verif.Catalog.gt_iff",
    "Verif.Catalog.chunked_same",
    "Verif.Catalog.chunks_size",
    "Verif.Catalog.search_sound",
    "Verif.Catalog.nan_beyond"
   ],
   "note": "Filters characterised; the chunked search flattens to the plain one for every size."
  },
  {
   "property": "C176",
   "status": "proved",
   "theorems": [
    "Verif.Catalog.propagate_direction",
    "Verif.Catalog.propagate_range",
    "Verif.Catalog.propagate_own_epoch",
    "Verif.Catalog.propagate_without",
    "Verif.Catalog.search_at_epoch"
   ],
   "note": "Exact real arithmetic; direction, range, identity at own epoch and without proper motion, and the search at an epoch."
  },
  {
   "property": "C177",
   "status": "proved",
   "theorems": [
    "Verif.Catalog.row_iff",
    "Verif.Catalog.parse_iff",
    "Verif.Catalog.parse_error",
    "Verif.Catalog.content_line",
    "Verif.Catalog.comments_ignored",
    "Verif.Catalog.columns_any_order",
    "Verif.Catalog.other_columns",
    "Verif.Catalog.written_iff",
    "Verif.Catalog.headerless_loses",
    "Verif.Catalog.nan_accepted"
   ],
   "note": "Exact characterisation of what is read and of errors; order of columns, other columns and comments do not matter; written tables are read back. Recorded: a table without a header loses its first row (headerless_loses), NaN coordinates are accepted (nan_accepted)."
  },
  {
   "property": "C178",
   "status": "proved",
   "theorems": [
    "Verif.Bodies.Isa.temperature_standard",
    "Verif.Bodies.Isa.pressure_hydrostatic",
    "Verif.Bodies.Isa.pressure_unique"
   ],
   "note": "Exact real arithmetic. The equation holds at every altitude and determines the pressure."
  },
  {
   "property": "C179",
   "status": "partial",
   "theorems": [
    "Verif.Bodies.Isa.pressure_altitude",
    "Verif.Bodies.Isa.altitude_pressure",
    "Verif.Bodies.Isa.pressure_decreases",
    "Verif.Bodies.Isa.geopotential_zero",
    "Verif.Bodies.Isa.geopotential_gravity",
    "Verif.Bodies.Isa.geometric_geopotential",
    "Verif.Bodies.Isa.geopotential_geometric",
    "Verif.Bodies.Isa.geopotential_range",
    "Verif.Bodies.Isa.geometric_too_low"
   ],
   "note": "Inverses and gravity proved. Refuted part: pressure_at_altitude is documented for geometric altitude but takes gravity as constant, so it needs the geopotential one; with geometric altitudes every pressure but that at sea level is too low (geometric_too_low)."
  },
  {
   "property": "C180",
   "status": "partial",
   "theorems": [
    "Verif.Bodies.track_moves",
    "Verif.Bodies.track_distance",
    "Verif.Bodies.track_keeps",
    "Verif.Bodies.track_epoch",
    "Verif.Bodies.track_stops",
    "Verif.Bodies.track_past_pole"
   ],
   "note": "Motion, distance, composition and epoch proved; refuted part: the latitude handed to Geodetic::new may pass 90 degrees (track_past_pole)."
  },
  {
   "property": "C181",
   "status": "partial",
   "theorems": [
    "Verif.Bodies.albedo_spec",
    "Verif.Bodies.attenuation_magnitudes",
    "Verif.Bodies.attenuation_spec",
    "Verif.Bodies.radiance_fin",
    "Verif.Bodies.radiance_nan",
    "Verif.Bodies.radiance_infinite",
    "Verif.Bodies.radiance_fourth"
   ],
   "note": "Laws proved. Refuted part: an infinite phase angle or wavelength gives a finite radiance, not NaN (radiance_infinite). Recorded: the radiance goes as the inverse fourth power of the distance."
  },
  {
   "property": "C182",
   "status": "proved",
   "theorems": [
    "Verif.Bodies.naif_iff",
    "Verif.Bodies.planet_ids",
    "Verif.Bodies.pluto_barycenter",
    "Verif.Bodies.hyphen_unknown"
   ],
   "note": "Exact characterisation for all strings; Pluto alone gives its barycentre, and the hyphenated name of the numbering is unknown."
  },
  {
   "property": "C183",
   "status": "partial",
   "theorems": [
    "Verif.Bodies.planet_built",
    "Verif.Bodies.planet_missing",
    "Verif.Bodies.comet_built",
    "Verif.Bodies.asteroid_built",
    "Verif.Bodies.comet_period",
    "Verif.Bodies.planet_unchecked",
    "Verif.Bodies.unchecked_loses"
   ],
   "note": "All call sequences; refuted part: build_unchecked drops the albedo (planet_unchecked, unchecked_loses)."
  },
  {
   "property": "C184",
   "status": "proved",
   "theorems": [
    "Verif.MeanElements.kepler",
    "Verif.MeanElements.kepler_sound"
   ],
   "note": "Exact arithmetic; in floating point the last steps may stall above 1e-13 for eccentricities close to one. Between 0.9999 and 1 only soundness is proved."
  },
  {
   "property": "C185",
   "status": "proved",
   "theorems": [
    "Verif.MeanElements.accept_iff",
    "Verif.MeanElements.reject_iff",
    "Verif.MeanElements.constants_published"
   ],
   "note": ""
  },
  {
   "property": "C186",
   "status": "proved",
   "theorems": [
    "Verif.MeanElements.propagate_on_orbit",
    "Verif.MeanElements.anomaly",
    "Verif.MeanElements.state_on_orbit",
    "Verif.MeanElements.axis_cubed"
   ],
   "note": "Exact arithmetic. The orbit is characterised by energy, angular momentum and eccentricity vector, the position by distance and component along perigee."
  },
  {
   "property": "C187",
   "status": "proved",
   "theorems": [
    "Verif.MeanElements.propagate_fails_iff",
    "Verif.MeanElements.at_epoch",
    "Verif.MeanElements.at_minutes"
   ],
   "note": ""
  },
  {
   "property": "C188",
   "status": "partial",
   "theorems": [
    "Verif.MeanElements.motion_not_printed",
    "Verif.MeanElements.drag_raises",
    "Verif.MeanElements.anomaly",
    "Verif.MeanElements.models_of_1972"
   ],
   "note": "False of the code: derivatives are used as printed, so they count a half and a sixth (motion_not_printed); the B* term takes mean motion away both ways, so drag raises the orbit (drag_raises), and it is missing from the phase (anomaly). The two WGS-72 models are the same (models_of_1972)."
  },
  {
   "property": "C189",
   "status": "proved",
   "theorems": [
    "Verif.Stellar.Props.threshold_exact",
    "Verif.Stellar.Props.threshold_pole",
    "Verif.Stellar.Props.params_altitude"
   ],
   "note": "Exact characterisation at every hour angle over the reals; link to the full evaluation of Apparent."
  },
  {
   "property": "C190",
   "status": "proved",
   "theorems": [
    "Verif.Stellar.Props.predict_exact",
    "Verif.Stellar.Props.predict_ends"
   ],
   "note": "Membership iff, no repetition, order, and termination."
  },
  {
   "property": "C191",
   "status": "partial",
   "theorems": [
    "Verif.Stellar.Props.verdict_confirmed",
    "Verif.Stellar.Props.verdict_contradicted",
    "Verif.Stellar.Props.above_exact_partial",
    "Verif.Stellar.Props.uniform_exact",
    "Verif.Stellar.Props.short_visit_missed",
    "Verif.Stellar.Props.short_visit_example"
   ],
   "note": "Exact if crossings are more than a quarter of an hour apart and not at the very ends of the window (uniform_exact for a uniformly turning star). The full statement is false: visits of at most a quarter of an hour are never reported (short_visit_missed, with a concrete star)."
  },
  {
   "property": "C192",
   "status": "proved",
   "theorems": [
    "Verif.Place.Props.fixed_is_network",
    "Verif.Place.Props.fixed_compose",
    "Verif.Place.Props.fixed_spherical"
   ],
   "note": "All three kinds, all pairs."
  },
  {
   "property": "C193",
   "status": "proved",
   "theorems": [
    "Verif.Place.Props.mean_to_ecliptic",
    "Verif.Place.Props.of_date_paths"
   ],
   "note": ""
  },
  {
   "property": "C194",
   "status": "partial",
   "theorems": [
    "Verif.Place.Props.true_ecliptic",
    "Verif.Place.Props.true_label_wrong"
   ],
   "note": "Violated by the code: the result holds mean ecliptic coordinates; the true ones differ by exactly the nutation in longitude."
  },
  {
   "property": "C195",
   "status": "proved",
   "theorems": [
    "Verif.Place.Props.sun_place",
    "Verif.Place.Props.sun_longitude"
   ],
   "note": ""
  },
  {
   "property": "C196",
   "status": "partial",
   "theorems": [
    "Verif.Place.Props.sun_against_network",
    "Verif.Place.Props.sun_equinox_off",
    "Verif.Place.Props.bias_equinox"
   ],
   "note": "Violated by the code: the matrix applied to the J2000 vector contains the frame bias, so the place is that of the vector displaced by the bias; equality exactly for vectors fixed by it."
  },
  {
   "property": "C197",
   "status": "proved",
   "theorems": [
    "Verif.Provider.star_culminations",
    "Verif.Provider.culminations_any_body",
    "Verif.Provider.star_is_its_direction",
    "Verif.Provider.own_engine"
   ],
   "note": "Star theorem for an evenly turning Earth with the precession-nutation rotation of the window fixed; general part for any altitude function. Exact real arithmetic."
  },
  {
   "property": "C198",
   "status": "partial",
   "theorems": [
    "Verif.Provider.azimuth_extrema_exact",
    "Verif.Provider.azimuth_extrema_complete",
    "Verif.Provider.azimuth_extrema_sound",
    "Verif.Provider.body_azimuth_extrema",
    "Verif.Provider.zenith_passage_reported",
    "Verif.Provider.own_engine"
   ],
   "note": "Equality with the continuous azimuth under the half-turn condition, with soundness and completeness; finding: a fast swing near the zenith is reported as an extremum although the azimuth is monotone."
  },
  {
   "property": "C199",
   "status": "partial",
   "theorems": [
    "Verif.Provider.star_direction_agree",
    "Verif.Provider.default_policy",
    "Verif.Provider.empty_window",
    "Verif.Provider.periods_use_policy",
    "Verif.Provider.star_azimuth_drops_policy",
    "Verif.Provider.solar_system_policy_ignored",
    "Verif.Provider.tolerance_ignored",
    "Verif.Provider.own_engine",
    "Verif.Provider.others_do_not_show"
   ],
   "note": "Agreement of star and direction proved except for azimuth_at_with_policy, which drops the policy for stars; findings: Sun, Moon and planets ignore every policy, the tolerance never reaches azimuth crossings and periods."
  },
  {
   "property": "C200",
   "status": "partial",
   "theorems": [
    "Verif.Boundary.altitude_in_radians",
    "Verif.Boundary.azimuth_not_in_degrees",
    "Verif.Boundary.culmination_records",
    "Verif.Boundary.extremum_records"
   ],
   "note": "Altitudes, culmination and extremum records are proved. Finding: siderust_azimuth_at is documented to write degrees (parameter out_deg) and writes radians (azimuth_not_in_degrees)."
  },
  {
   "property": "C201",
   "status": "partial",
   "theorems": [
    "Verif.Boundary.phase_written",
    "Verif.Boundary.label_same",
    "Verif.Boundary.label_codes",
    "Verif.Boundary.label_call_ends",
    "Verif.Boundary.label_call_hangs",
    "Verif.Boundary.phase_options_unchecked",
    "Verif.Boundary.subject_options_checked"
   ],
   "note": "Records and labels agree. Findings: a record with a large elongation makes the label call loop for ever (label_call_hangs); phase searches accept any tolerance, also NaN and negative ones, which the other searches refuse (phase_options_unchecked)."
  },
  {
   "property": "C202",
   "status": "proved",
   "theorems": [
    "Verif.Targets.Props.created",
    "Verif.Targets.Props.refused",
    "Verif.Targets.Props.same_point",
    "Verif.Targets.Props.cartesian_payload",
    "Verif.Targets.Props.converted_place"
   ],
   "note": "Acceptance exactly characterised (created, refused); place, distance, epoch."
  },
  {
   "property": "C203",
   "status": "partial",
   "theorems": [
    "Verif.Targets.Props.motion_kept",
    "Verif.Targets.Props.motion_lost",
    "Verif.Targets.Props.library_motion",
    "Verif.Targets.Props.c_motion_lost"
   ],
   "note": "Proved for changes of frame that leave the pole in place (motion_kept). Finding: the rates are copied, not turned, so for every other change of frame motion is wrong (motion_lost); among ICRS, mean equator and mean ecliptic of J2000 the meaning is kept only by the conversion to the same frame (library_motion), and targets made through C in the ecliptic or mean equator are stored in ICRS with unturned motion (c_motion_lost)."
  },
  {
   "property": "C204",
   "status": "proved",
   "theorems": [
    "Verif.Passband.Props.passband",
    "Verif.Passband.Props.loaded",
    "Verif.Passband.Props.johnson"
   ],
   "note": "The loader and the interpolation of the external crate optica enter with the behaviour stated in the model; real arithmetic."
  },
  {
   "property": "C205",
   "status": "proved",
   "theorems": [
    "Verif.Passband.Props.passband_width",
    "Verif.Passband.Props.passband_mean"
   ],
   "note": "As C204. The documented effective wavelengths of the accessors are Vega-weighted and not claimed."
  },
  {
   "property": "C206",
   "status": "proved",
   "theorems": [
    "Verif.Passband.Props.ozone_curve"
   ],
   "note": "The numbers of the 3614 lines are taken as read; interpolation of optica as stated in the model; real arithmetic."
  },
  {
   "property": "C207",
   "status": "proved",
   "theorems": [
    "Verif.Elp.Props.series_close",
    "Verif.Elp.Props.series_exact",
    "Verif.Elp.Props.sums_close"
   ],
   "note": "Exact real arithmetic; tables, constants and the four-lane sine (with its error) are parameters"
  },
  {
   "property": "C208",
   "status": "proved",
   "theorems": [
    "Verif.Elp.Props.moon_place",
    "Verif.Elp.Props.moon_distance",
    "Verif.Elp.Props.moon_at_epoch",
    "Verif.Elp.Props.laskar_turn",
    "Verif.Elp.Props.laskar_rigid"
   ],
   "note": "Exact real arithmetic; no answer (NaN in the code) when p^2+q^2 > 1; moon_place for the exact sine, moon_distance and moon_at_epoch for any"
  },
  {
   "property": "C209",
   "status": "proved",
   "theorems": [
    "Verif.Elp.Props.pluto_sums",
    "Verif.Elp.Props.pluto_place",
    "Verif.Elp.Props.pluto_distance",
    "Verif.Elp.Props.pluto_height"
   ],
   "note": "Exact real arithmetic; the tables are parameters of one length"
  },
  {
   "property": "C210",
   "status": "partial",
   "theorems": [
    "Verif.OemXml.Props.read_complete",
    "Verif.OemXml.Props.infinite_read",
    "Verif.OemXml.Props.comment_splits",
    "Verif.OemXml.Props.read_document"
   ],
   "note": "read_document: every document, through the tokenizer's events. Partial because the code reads infinite and NaN coordinates against its documentation (infinite_read) and keeps only the last piece of a text cut by a comment (comment_splits)."
  },
  {
   "property": "C211",
   "status": "partial",
   "theorems": [
    "Verif.OemXml.Props.write_read",
    "Verif.OemXml.Props.write_read_plain",
    "Verif.OemXml.Props.name_kept_iff",
    "Verif.OemXml.Props.name_truncated",
    "Verif.OemXml.Props.name_lost",
    "Verif.OemXml.Props.write_nothing"
   ],
   "note": "Full for names without special characters (write_read_plain); write_read says what comes back for every name; name_kept_iff is exact. The claim fails for names with special characters (name_truncated, name_lost)."
  },
  {
   "property": "C212",
   "status": "partial",
   "theorems": [
    "Verif.CFrames.Props.cart_dir",
    "Verif.CFrames.Props.cart_pos",
    "Verif.CFrames.Props.sph_dir",
    "Verif.CFrames.Props.seen_dot",
    "Verif.CFrames.Props.seen_chain",
    "Verif.CFrames.Props.seen_self",
    "Verif.CFrames.Props.journey_direct",
    "Verif.CFrames.Props.horizon_stored",
    "Verif.CFrames.Props.c_and_library"
   ],
   "note": "Proved for the turns between frames; partial because the horizontal functions store azimuth and altitude in each other's place (horizon_stored), and because with observed pole offsets the C answer differs from the library's direct rotation (c_and_library)."
  },
  {
   "property": "C213",
   "status": "partial",
   "theorems": [
    "Verif.CFrames.Props.default_context",
    "Verif.CFrames.Props.context_model",
    "Verif.CFrames.Props.cart_dir_with",
    "Verif.CFrames.Props.cart_pos_with",
    "Verif.CFrames.Props.model_matters",
    "Verif.CFrames.Props.date_matters",
    "Verif.CFrames.Props.horizon_right",
    "Verif.CFrames.Props.horizon_mixes"
   ],
   "note": "Everything but the horizon holds for every model; the horizontal functions take the sidereal time from IAU 2006A nutation whatever the context says, so they are right only for models with the same nutation in longitude (horizon_right) and wrong otherwise (horizon_mixes)."
  },
  {
   "property": "C214",
   "status": "partial",
   "theorems": [
    "Verif.COrbit.prepared_iff",
    "Verif.COrbit.refused",
    "Verif.COrbit.prepared_orbit",
    "Verif.COrbit.kepler_as_prepared",
    "Verif.COrbit.mean_orbit",
    "Verif.COrbit.conic_ellipse",
    "Verif.COrbit.conic_hyperbola",
    "Verif.COrbit.written_iff",
    "Verif.COrbit.open_orbit_panics",
    "Verif.COrbit.centre_ignored"
   ],
   "note": "Proved for prepared, mean-motion and conic orbits, and for the unprepared function on ellipses. Refuted part: siderust_kepler_position_ex does not validate its elements, so an open orbit is an internal panic (open_orbit_panics), and the numbers are those of an orbit around the Sun whatever centre is named (centre_ignored)."
  },
  {
   "property": "C215",
   "status": "partial",
   "theorems": [
    "Verif.SunModel.fast_is_altitude",
    "Verif.SunModel.fast_bounded",
    "Verif.SunModel.day_state",
    "Verif.SunModel.fast_clock",
    "Verif.SunModel.fast_not_one_arcminute"
   ],
   "note": "The geometry is proved; the documented accuracy of one arcminute is refuted by fast_not_one_arcminute (the fast clock takes TT for UT1)."
  },
  {
   "property": "C216",
   "status": "proved",
   "theorems": [
    "Verif.SunModel.quiet_day",
    "Verif.SunModel.prediction_exact"
   ],
   "note": "The concrete arccos and sine of the code put in the place of the parameters of the daily search."
  },
  {
   "property": "C217",
   "status": "partial",
   "theorems": [
    "Verif.Spk.Coverage.coverage_exact",
    "Verif.Spk.Coverage.window_excludes",
    "Verif.Spk.Coverage.window_single",
    "Verif.Spk.Coverage.window_not_coverage",
    "Verif.Spk.Coverage.window_missing"
   ],
   "note": "Exact characterisation proved; as a description of the coverage it is wrong for several segments per pair (window_not_coverage) and missing for indirect links (window_missing)."
  },
  {
   "property": "C218",
   "status": "partial",
   "theorems": [
    "Verif.Daf.Bsp.picked_tables",
    "Verif.Daf.Bsp.pick_no_panic",
    "Verif.Daf.Bsp.frame_ignored",
    "Verif.Daf.Bsp.later_ignored"
   ],
   "note": "Exact characterisation proved. As a reader of planetary ephemerides it disregards the frame (frame_ignored) and all but the first segment of a pair (later_ignored)."
  },
  {
   "property": "C219",
   "status": "proved",
   "theorems": [
    "Verif.CTle.written_lines",
    "Verif.CTle.parse_answer",
    "Verif.CTle.blanks_ignored",
    "Verif.CTle.not_utf8",
    "Verif.CTle.propagate_answer"
   ],
   "note": "Model of siderust-ffi/src/sgp4.rs joined to the reader and writer of two-line elements and to the propagator; exact real arithmetic in the propagator; Julian dates of epochs are a parameter. Hypotheses: the column limits of C07 (drag term that fits, epoch not in the last 0.432 ms of a year), mean motion at least 1e-8 rev/day."
  },
  {
   "property": "C220",
   "status": "partial",
   "theorems": [
    "Verif.CTle.new_iff",
    "Verif.CTle.prepare_iff",
    "Verif.CTle.gravity_code",
    "Verif.CTle.set_released",
    "Verif.CTle.unknown_gravity_accepted",
    "Verif.CTle.second_model_is_first",
    "Verif.CTle.bad_angle_never_propagates",
    "Verif.CTle.read_range"
   ],
   "note": "Exact condition proved (new_iff), codes reported back (gravity_code), independence of the set (set_released). False parts recorded: an unknown code is taken for WGS-72 (unknown_gravity_accepted), code 1 gives the states of code 0 (second_model_is_first), and a column that says nan is accepted although no date can be propagated (bad_angle_never_propagates)."
  },
  {
   "property": "C221",
   "status": "proved",
   "theorems": [
    "Verif.Handover.covariance_iff",
    "Verif.Handover.covariance_kept",
    "Verif.Handover.handover",
    "Verif.Handover.handover_is_batch",
    "Verif.Handover.stddevs_covariance"
   ],
   "note": "Linear measurements; exact arithmetic; faer's factorisation by contract; the 3x3 blocks are affn's (from_upper mirrors the upper triangle, to_row_major puts the transposed cross block below)."
  },
  {
   "property": "C222",
   "status": "partial",
   "theorems": [
    "Verif.StmCheck.scale_spec",
    "Verif.StmCheck.check_le_iff",
    "Verif.StmCheck.exact_is_zero",
    "Verif.StmCheck.check_error_iff",
    "Verif.StmCheck.steps_cover",
    "Verif.StmCheck.nan_is_perfect",
    "Verif.StmCheck.nan_matrix_is_perfect",
    "Verif.StmCheck.velocity_hidden"
   ],
   "note": "Proved with the scale the code uses (the largest component, one for all); the documented per-component reading is false (velocity_hidden), and NaN propagations or matrices are reported as error 0 (nan_is_perfect, nan_matrix_is_perfect)."
  },
  {
   "property": "C223",
   "status": "partial",
   "theorems": [
    "Verif.CSky.null_outputs",
    "Verif.CSky.grid_contract",
    "Verif.CSky.grid_released_once",
    "Verif.CSky.uniform_cells",
    "Verif.CSky.unusable_accepted",
    "Verif.CSky.beyond_zenith",
    "Verif.CSky.rows_finite",
    "Verif.CSky.infinite_band"
   ],
   "note": "Array contract, index formula, altitude band and release proved for all finite inputs; the last parts are false: zero or negative steps and empty bands succeed with no cells (unusable_accepted), bands beyond the zenith give altitudes above 90 degrees and negative solid angles (beyond_zenith), an infinite band asks for 2^64-1 rings (infinite_band)."
  },
  {
   "property": "C224",
   "status": "partial",
   "theorems": [
    "Verif.Runtime.load_iff",
    "Verif.Runtime.fromBytes_eq",
    "Verif.Runtime.sun_answer",
    "Verif.Runtime.earth_answer",
    "Verif.Runtime.earth_from_sun_answer",
    "Verif.Runtime.earth_velocity_answer",
    "Verif.Runtime.moon_answer",
    "Verif.Runtime.queries_no_panic",
    "Verif.Runtime.useless_kernel_loads",
    "Verif.Runtime.earth_gap"
   ],
   "note": "All clauses proved end to end from the words of the file (load_iff, *_answer, queries_no_panic, fromBytes_eq joins them to the reading of the summaries). Partial because the two limits are defects: useless_kernel_loads, earth_gap."
  },
  {
   "property": "C225",
   "status": "proved",
   "theorems": [
    "Verif.CTarget.Props.client_history",
    "Verif.CTarget.Props.nothing_leaks",
    "Verif.CTarget.Props.handles_differ",
    "Verif.CTarget.Props.build_verdict",
    "Verif.CTarget.Props.verdict_unique",
    "Verif.CTarget.Props.short_forms"
   ],
   "note": "The heap is a partial map and the allocator a contract; a client that keeps using a released handle is outside (undefined behaviour). Angles of a direction and proper motions are finite in the model: the code does not test them."
  },
  {
   "property": "C226",
   "status": "proved",
   "theorems": [
    "Verif.CEph.Props.load_call",
    "Verif.CEph.Props.load_unreadable",
    "Verif.CEph.Props.position_call",
    "Verif.CEph.Props.position_iff",
    "Verif.CEph.Props.position_refused",
    "Verif.CEph.Props.velocity_call",
    "Verif.CEph.Props.file_to_answer",
    "Verif.CEph.Props.guards",
    "Verif.CEph.Props.free_exact",
    "Verif.CEph.Props.refused_unique",
    "Verif.CEph.Props.needs_exists"
   ],
   "note": "exact arithmetic; the file reader's search for summaries may not end (finding of C23), for which nothing is claimed; load_bsp and ensure, which obtain the bytes, are not modelled"
  },
  {
   "property": "C227",
   "status": "partial",
   "theorems": [
    "Verif.Naming.Props.lfn_columns",
    "Verif.Naming.Props.columns_unique",
    "Verif.Naming.Props.kinds_differ",
    "Verif.Naming.Props.product_names",
    "Verif.Naming.Props.sp3_is_lfn",
    "Verif.Naming.Props.observation_tag_short",
    "Verif.Naming.Props.widths_unchecked"
   ],
   "note": "columns, recoverability, disjointness of the kinds and the defaults are proved; the three-character tag fails for rnx_obs_filename (observation_tag_short), and no builder checks widths (widths_unchecked)"
  },
  {
   "property": "C228",
   "status": "partial",
   "theorems": [
    "Verif.Sites.Props.degrees_code",
    "Verif.Sites.Props.degrees_total",
    "Verif.Sites.Props.radians_same",
    "Verif.Sites.Props.radians_dark",
    "Verif.Sites.Props.codes_ordered",
    "Verif.Sites.Props.search_thresholds",
    "Verif.Sites.Props.twilight_guard",
    "Verif.Sites.Props.not_a_number_is_dark"
   ],
   "note": "Proved for all finite altitudes. Refuted part: NaN is reported as full darkness with status Ok (not_a_number_is_dark)."
  },
  {
   "property": "C229",
   "status": "partial",
   "theorems": [
    "Verif.Sites.Props.site_written",
    "Verif.Sites.Props.sites_on_earth",
    "Verif.Sites.Props.profile_disagrees",
    "Verif.Sites.Props.rayleigh_disagrees",
    "Verif.Sites.Props.mauna_kea_pressure",
    "Verif.Sites.Props.place_to_ecef",
    "Verif.Sites.Props.place_guard",
    "Verif.Sites.Props.any_place_accepted"
   ],
   "note": "Values, labels and pointers proved. Refuted parts: three of four atmosphere profiles disagree with the site record (profile_disagrees, rayleigh_disagrees); the pressure of Mauna Kea is not that of the standard atmosphere (mauna_kea_pressure); no place is refused (any_place_accepted). The conversion to Cartesian coordinates is a parameter (crate affn)."
  },
  {
   "property": "C230",
   "status": "proved",
   "theorems": [
    "Verif.SolarSystem.Props.planets_published",
    "Verif.SolarSystem.Props.well_formed",
    "Verif.SolarSystem.Props.orbits_nested",
    "Verif.SolarSystem.Props.prose",
    "Verif.SolarSystem.Props.planet_from_c",
    "Verif.SolarSystem.Props.third_law"
   ],
   "note": "Decimal constants as rationals; the Kepler solver of the C path is a parameter with its contract (as C219); published table restated in Props."
  },
  {
   "property": "C231",
   "status": "partial",
   "theorems": [
    "Verif.SolarSystem.Props.moon_inside_earth",
    "Verif.SolarSystem.Props.io_axis",
    "Verif.SolarSystem.Props.moon_periods",
    "Verif.SolarSystem.Props.lagrange_apart",
    "Verif.SolarSystem.Props.hale_bopp",
    "Verif.SolarSystem.Props.halley_1986",
    "Verif.SolarSystem.Props.halley_period",
    "Verif.SolarSystem.Props.sun_declination"
   ],
   "note": "False of the code, negations proved: Moon's axis a thousand times too small (orbit inside the Earth), Io's axis off by over 600 km, periods of moons computed around the Sun, L2 on the far side of the Sun, Hale-Bopp without a perihelion passage near 1997, Halley five years off in 1986, the Sun's declination built from hours. Halley's period and the Sun's right ascension are as documented."
  },
  {
   "property": "C232",
   "status": "proved",
   "theorems": [
    "Verif.CStar.Props.client_history",
    "Verif.CStar.Props.every_call_answered",
    "Verif.CStar.Props.found_iff",
    "Verif.CStar.Props.constant_agrees",
    "Verif.CStar.Props.any_numbers",
    "Verif.CStar.Props.unicode_example"
   ],
   "note": "The ten constants agree with their comments up to the rounding of the comments (luminosity to half a unit, angles to half of the fifth decimal). Position::new (affn) and upper case of characters beyond ASCII are parameters; what Unicode says of the latter is the hypothesis Unicode. The dotless i and the long s also count as I and S. The numbers of a custom star other than the epoch are not examined (any_numbers)."
  },
  {
   "property": "C233",
   "status": "partial",
   "theorems": [
    "Verif.Bracketing.fixed_step",
    "Verif.Bracketing.crossing_inside",
    "Verif.Bracketing.adaptive_step",
    "Verif.Bracketing.search_backward",
    "Verif.Bracketing.search_forward",
    "Verif.Bracketing.extrema_based",
    "Verif.Bracketing.one_pass",
    "Verif.Bracketing.no_step_no_end",
    "Verif.Bracketing.adaptive_no_more",
    "Verif.Bracketing.two_missed",
    "Verif.Bracketing.pass_missed"
   ],
   "note": "Proved as stated over the real numbers, with find_extrema as a parameter whose extrema are at least 1e-9 days inside the window. Partial because the promises of the documentation fail: a step that is not positive is not refused and the scan does not end (no_step_no_end); the adaptive policy, documented to subdivide where the function changes rapidly, subdivides only windows that already show a crossing and so finds no more than the fixed step (adaptive_no_more, two_missed); a maximum above the threshold, of which the code says there must be a crossing before and after, can lose both (pass_missed)."
  }
 ]
}