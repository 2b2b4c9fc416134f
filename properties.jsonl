{"id": "C01", "title": "SHA-256 of every message is the FIPS 180-4 digest", "statement": "The integrity digest computed over a downloaded byte string equals the FIPS 180-4 SHA-256 of that string, for messages of any length (including every padding case: tail shorter than, equal to and longer than 55 bytes, exact multiples of 64, and the empty message).", "quantifier": "every byte string shorter than 2^61 bytes", "why_tests_cant": "Vectors sample a few lengths; the padding/tail branch depends on length mod 64 and the number of blocks is unbounded.", "anchors": ["src/checksum.rs: sha256", "src/checksum.rs: compress"]}
{"id": "C02", "title": "Hex digest text and digest bytes are inverse; the integrity gate accepts exactly matching files", "statement": "Decoding the hex text of a digest gives the digest back, encoding a decoded 64-character hex text gives its lower-case form, and the integrity assertion returns normally iff the SHA-256 of the data equals the expected digest.", "quantifier": "all 32-byte digests, all 64-character hex strings, all data", "why_tests_cant": "2^256 digests; the claim is an equivalence over all of them.", "anchors": ["src/checksum.rs: hex32, to_hex, assert_sha256_eq"]}
{"id": "C03", "title": "TLE checksum acceptance is exactly the modulo-10 rule and detects every single-digit corruption", "statement": "A TLE line passes validation iff it has 69 characters and its 69th character is the decimal digit equal to (sum of the digits plus number of minus signs in the first 68 columns) mod 10; replacing any one digit by a different digit in a valid line makes validation fail.", "quantifier": "all ASCII lines and all single-digit substitutions", "why_tests_cant": "Infinite input space; tests try a handful of corruptions.", "anchors": ["src/formats/tle/parse.rs: validate_tle_checksum, compute_checksum"]}
{"id": "C04", "title": "Alpha-5 satellite numbers round-trip over the whole catalogue range", "statement": "Formatting any catalogue number the library accepts gives a five-character field that parses back to the same number; the accepted range is exactly 0..339999, the letters I and O never occur, and two distinct numbers never format to the same field.", "quantifier": "all catalogue numbers", "why_tests_cant": "Letter gaps at I and O and the range ends create many boundaries.", "anchors": ["src/formats/tle/tle.rs: SatelliteNumber::parse, SatelliteNumber::format_alpha5"]}
{"id": "C05", "title": "Two-digit TLE epoch years expand to the unique year in 1957..2056", "statement": "Every two-digit year expands to the one year of 1957..2056 that is congruent to it modulo 100, so writing the year modulo 100 and reading it back is the identity on that century.", "quantifier": "all two-digit years and all years 1957..2056", "why_tests_cant": "Pivot-year errors show only at the boundary.", "anchors": ["src/formats/tle/parse.rs: expand_two_digit_year"]}
{"id": "C06", "title": "Assumed-decimal TLE fields survive writing and reading", "statement": "For every drag/second-derivative value written in the assumed-decimal notation, the written field has exactly the eight columns the format allots and parses back to the value rounded to five significant digits.", "quantifier": "all finite values the builder accepts", "why_tests_cant": "Rounding at the top of the mantissa range and exponent digits beyond one occur for isolated values.", "anchors": ["src/formats/tle/builder.rs: format_assumed_decimal_exponent", "src/formats/tle/parse.rs: parse_assumed_decimal_exponent"]}
{"id": "C07", "title": "A written TLE parses back to the same element set", "statement": "Every element set accepted by the builder is written as two 69-character lines with valid checksums, and parsing them recovers every field to the printed precision.", "quantifier": "all element sets accepted by the builder", "why_tests_cant": "Eleven independent numeric fields whose widths interact; a sample cannot cover overflow of each.", "anchors": ["src/formats/tle/builder.rs: TleBuilder::build, format_tle", "src/formats/tle/parse.rs: parse_tle"]}
{"id": "C08", "title": "TLE parsing returns an error and never panics on malformed text", "statement": "For every pair of input lines the parser returns either an element set or an error value.", "quantifier": "all pairs of Unicode strings", "why_tests_cant": "Fuzzing samples; the claim is totality.", "anchors": ["src/formats/tle/parse.rs: validate_tle_checksum, parse_tle_inner"]}
{"id": "C09", "title": "Mode S parity check is the 24-bit CRC and detects bursts and up to five bit errors", "statement": "The check of a frame passes exactly when the message polynomial of the whole frame is a multiple of the Mode S generator (equivalently, when the last three bytes are the parity of the bytes before them), and a valid 112-bit frame altered within any window of at most 24 bits, in an odd number of bits, or in at most five bits never passes the check.", "quantifier": "all frames, all error patterns of the named kinds", "why_tests_cant": "2^112 frames times all error positions.", "anchors": ["src/formats/adsb/mod.rs: crc24, parse_frame"]}
{"id": "C10", "title": "ADS-B frame acceptance is exactly: 28 hex digits, downlink format 17 or 18, zero parity residue", "statement": "A text is accepted as an extended squitter iff it has 28 hexadecimal digits in either case, encodes a frame with downlink format 17 or 18 and matching parity; the accepted frame holds the bytes written by the text, the reported format, address and payload are those bytes' fields, and no text makes the parser panic.", "quantifier": "all strings", "why_tests_cant": "Unbounded input space.", "anchors": ["src/formats/adsb/mod.rs: parse_frame, hex_nibble, AdsbFrame accessors"]}
{"id": "C11", "title": "ADS-B callsigns decode every six-bit character at its own position", "statement": "The callsign decoded from an identification message is the eight six-bit characters of the payload in order mapped through the ICAO alphabet with trailing blanks removed; encoding any callsign over the alphabet and decoding it is the identity.", "quantifier": "all 56-bit payloads and all callsigns of up to eight alphabet characters", "why_tests_cant": "2^48 character fields.", "anchors": ["src/formats/adsb/mod.rs: decode_identification"]}
{"id": "C12", "title": "ADS-B 25-ft altitude decodes as 25*N-1000 feet with the Q bit removed", "statement": "For every altitude code with the Q bit set, the decoded altitude is 25 N - 1000 ft where N is the 11-bit number formed from the other bits, so encode-then-decode is the identity for every representable altitude, and code 0 means 'no altitude'. The position payload's fields are the standard's bit ranges.", "quantifier": "all 12-bit altitude codes", "why_tests_cant": "The bit permutation must hold for all codes, not a sample (this one is finite and is settled exhaustively by proof).", "anchors": ["src/formats/adsb/mod.rs: decode_altitude"]}
{"id": "C13", "title": "ADS-B velocity subfields decode with sign, and 'no information' is never reported as a number", "statement": "Each airborne velocity component is (raw-1) knots with the direction bit as sign, the vertical rate is 64*(raw-1) ft/min with its sign bit, and a raw value of zero, which the standard defines as 'no information', is not turned into a number.", "quantifier": "all 56-bit velocity payloads", "why_tests_cant": "Zero raw subfields are rare in sample data.", "anchors": ["src/formats/adsb/mod.rs: decode_airborne_velocity"]}
{"id": "C14", "title": "CPR local decoding recovers the transmitted position", "statement": "If the receiver's reference is within half a zone of the aircraft in latitude and longitude, locally decoding a position encoded as the standard prescribes (zone counts included) returns the transmitted position (exactly the quantised one), and the result always lies within half a zone of the reference.", "quantifier": "all positions, references and both parities", "why_tests_cant": "Zone boundaries and wraparound are sparse in samples.", "anchors": ["src/formats/adsb/cpr.rs: decode_locally, nl, dlat"]}
{"id": "C15", "title": "CPR global decoding recovers the position from an even/odd pair", "statement": "Decoding an even/odd pair encoding the same position returns a latitude and longitude that both messages encode, in the documented ranges, and never a non-number.", "quantifier": "all even/odd pairs", "why_tests_cant": "Zone-count transitions and polar zones are measure-zero in samples.", "anchors": ["src/formats/adsb/cpr.rs: decode_globally"]}
{"id": "C16", "title": "Visibility periods are sorted, disjoint, non-degenerate and inside the search window", "statement": "Every list of above-threshold periods returned for a window is in increasing order, its periods do not overlap, each has start before end, and each lies inside the window.", "quantifier": "all windows, functions, step sizes and root lists", "why_tests_cant": "The claim quantifies over arbitrary functions and crossing lists.", "anchors": ["src/event/search/intervals.rs: build_above_periods, build_above_periods_directed, above_threshold_periods"]}
{"id": "C17", "title": "Above-threshold periods are exactly the instants where the quantity exceeds the threshold", "statement": "If the crossings found are all the crossings in the window with their true directions, then an instant in the window that is not itself a crossing belongs to a returned period iff the quantity is above the threshold there.", "quantifier": "all continuous functions with finitely many crossings in the window", "why_tests_cant": "Function-valued input.", "anchors": ["src/event/search/intervals.rs: label_crossings, build_above_periods, above_threshold_periods"]}
{"id": "C18", "title": "In-range periods are the instants above the lower and not above the upper threshold", "statement": "The periods returned for a range query are, up to crossing instants, the instants above the lower bound and not above the upper bound, whatever the number and interleaving of the crossings of the two bounds.", "quantifier": "all windows and all interleavings of two crossing lists", "why_tests_cant": "Unbounded interleavings.", "anchors": ["src/event/search/intervals.rs: in_range_periods, complement, intersect"]}
{"id": "C19", "title": "Reported crossings are genuine: each lies in the window in a sign-changing sample interval", "statement": "Each crossing time returned by the scanning search lies in the window and comes from a bracket whose end samples have opposite signs, crossings are in increasing order, and any two of the directed search are at least the merge tolerance apart.", "quantifier": "all functions, windows and positive steps", "why_tests_cant": "Function-valued input.", "anchors": ["src/event/search/intervals.rs: find_crossings, find_directed_crossings, sort_and_dedup"]}
{"id": "C20", "title": "No sampled sign change is missed by the crossing scan", "statement": "Whenever two consecutive samples of the search grid lie strictly on opposite sides of the threshold, a crossing between them is returned; and a sample lying exactly on the threshold between samples of opposite sign is returned too.", "quantifier": "all functions and grids", "why_tests_cant": "Exact zeros at grid points have measure zero in random tests.", "anchors": ["src/event/search/intervals.rs: find_crossings", "src/event/search/bracketing.rs: fixed_step_brackets"]}
{"id": "C21", "title": "Bisection and Brent refinement return a point of the bracket and keep a sign change", "statement": "Root refinement on a bracket returns a point between its ends, and refuses only brackets whose end values are of one sign. Bisection's result has |f| < 1e-12 or is the middle of a sub-bracket with a sign change that is shorter than 1e-9 or 2^-80 of the initial width. Brent's result has |f| < 1e-12 or still has a sign change between it and another point of the bracket; it is within two tolerances of that point whenever the bracket is at most a hundred tolerances wide.", "quantifier": "all functions, brackets and tolerances", "why_tests_cant": "Function-valued input.", "anchors": ["src/event/search/root_finding.rs: bisection, brent_with_values, brent_engine"]}
{"id": "C22", "title": "Golden-section refinement stays in its bracket and finds the peak of a unimodal function", "statement": "The extremum refinement returns a point within the supplied interval, and for a unimodal function the returned point is within half the requested tolerance of the true extremum, or within 2e-13 of the interval's length when the tolerance asked for is finer than that.", "quantifier": "all functions; all unimodal functions for accuracy", "why_tests_cant": "Function-valued input.", "anchors": ["src/event/search/extrema.rs: minimize_tol, maximize_tol"]}
{"id": "C23", "title": "Every DAF kernel file is parsed in finitely many steps", "statement": "Parsing any byte string as a DAF container terminates with summaries or an error.", "quantifier": "all byte strings", "why_tests_cant": "A cyclic record chain makes a test hang rather than fail; the claim is termination for all inputs.", "anchors": ["src/formats/spice/daf.rs: Daf::parse, DafRaw::parse"]}
{"id": "C24", "title": "Reading a well-formed DAF file returns exactly the summaries that were written, in order", "statement": "For every list of summaries laid out in summary records per the DAF specification, parsing the resulting file returns those summaries, in order, with the start/end words, codes and epochs written.", "quantifier": "all summary lists and record layouts", "why_tests_cant": "Unbounded lists split across records.", "anchors": ["src/formats/spice/daf.rs: DafRaw::parse"]}
{"id": "C25", "title": "SPK segment reading never reads outside the file", "statement": "For every file content and every segment descriptor, loading a Chebyshev segment either reports an error or reads only words inside the file, and the coefficient table returned has exactly (records x record size) entries.", "quantifier": "all byte strings and descriptors", "why_tests_cant": "Adversarial descriptors are unbounded.", "anchors": ["src/formats/spice/spk.rs: read_segment, ensure_word_in_file", "src/formats/spice/segment.rs: read_chebyshev"]}
{"id": "C26", "title": "The Chebyshev record used for an epoch is the one whose interval contains it", "statement": "For every segment and every epoch in its coverage, the record index is valid, the record's interval contains the epoch, and the normalised time lies in [-1,1]; out-of-coverage epochs are clamped to the first or last record or rejected, never indexed out of range.", "quantifier": "all segments and epochs", "why_tests_cant": "The end of coverage and record boundaries are measure-zero.", "anchors": ["src/formats/spice/segment.rs: ChebSegment::locate", "src/ephemeris/jpl/eval.rs: locate_params_et, record_tau"]}
{"id": "C27", "title": "Lagrange interpolation reproduces nodes and every polynomial of matching degree", "statement": "Interpolating discrete states returns the tabulated value at every tabulated epoch, and evaluating data sampled from a polynomial of degree at most n-1 with n nodes returns the polynomial everywhere.", "quantifier": "all node sets with distinct epochs, all polynomials, all epochs", "why_tests_cant": "Infinite families of polynomials and node sets.", "anchors": ["src/formats/spice/segment.rs: lagrange_value"]}
{"id": "C28", "title": "Hermite interpolation matches values and derivatives at every node", "statement": "At every tabulated epoch the Hermite evaluation returns the tabulated position and the tabulated velocity, and data sampled from a polynomial of degree at most 2n-1 with n nodes are reproduced everywhere with their derivative.", "quantifier": "all node sets with distinct epochs, all polynomials, all epochs", "why_tests_cant": "Infinite families.", "anchors": ["src/formats/spice/segment.rs: hermite_value_and_derivative"]}
{"id": "C29", "title": "The interpolation window is always inside the table and brackets the epoch", "statement": "For every epoch table and every requested epoch in coverage, the window of states selected has the configured size (tables that are too small are refused), lies inside the table, and contains the two states surrounding the epoch.", "quantifier": "all tables, window sizes, epochs", "why_tests_cant": "Edge windows near both ends.", "anchors": ["src/formats/spice/segment.rs: DiscreteStatesSegment::locate_or_window"]}
{"id": "C30", "title": "SPK kernel state query: every answer is the signed sum along a covering chain", "statement": "Whenever a state query succeeds, there is a path of segments from centre to target, each covering the epoch, and the state is the sum of the segment states with the sign of the traversal direction.", "quantifier": "all kernels (segment graphs), targets, centres, epochs", "why_tests_cant": "Arbitrary graphs.", "anchors": ["src/formats/spice/kernel.rs: state, find_chain"]}
{"id": "C31", "title": "SPK kernel state query finds a chain whenever one exists", "statement": "If some chain of segments covering the epoch connects two bodies, the chain search finds one; otherwise it says so, and the out-of-coverage error is given exactly when a chain would exist at some other epoch.", "quantifier": "all kernels, targets, centres, epochs", "why_tests_cant": "Arbitrary graphs including cycles and disconnected ones.", "anchors": ["src/formats/spice/kernel.rs: find_chain, has_chain_ignoring_epoch"]}
{"id": "C32", "title": "SPK states are consistent: swapping target and centre negates the state", "statement": "On kernels whose segments come from one consistent ephemeris (every body has one position), the state returned for any pair is target position minus centre position, independent of the chain; hence swapped queries negate, and a body relative to itself is zero.", "quantifier": "all consistent kernels and pairs", "why_tests_cant": "Path independence quantifies over all graphs.", "anchors": ["src/formats/spice/kernel.rs: state", "src/formats/spice/spk_kernel.rs: try_position_from_ssb"]}
{"id": "C33", "title": "Among several segments covering an epoch the last-loaded one is used", "statement": "When several segments for the same pair cover the epoch, the one that comes last (in the file, or in load order) is evaluated, as the SPICE precedence rule requires.", "quantifier": "all kernels with overlapping segments", "why_tests_cant": "Overlap configurations are unbounded.", "anchors": ["src/formats/spice/kernel.rs: find_chain", "src/spice/kernel_set.rs: state_naif", "src/ephemeris/jpl/eval.rs: DynSegmentStack::select_et"]}
{"id": "C34", "title": "Earth, Moon and Earth-Moon barycentre positions are mutually consistent", "statement": "From the same kernel and epoch, the mass-weighted mean of the Earth and Moon positions is the Earth-Moon barycentre, the geocentric Moon is the barycentric Moon minus the barycentric Earth, and heliocentric equals barycentric minus the Sun.", "quantifier": "all kernels and epochs; a direct Earth segment, where present, obeying the mass relation (it is data of the file)", "why_tests_cant": "Identity over all coefficient values.", "anchors": ["src/ephemeris/jpl/bodies.rs"]}
{"id": "C35", "title": "Text kernel assignments are read back as written", "statement": "Writing any list of assignments of integers, reals and quoted strings in kernel syntax and parsing the text yields those variables with those values in order; '=' replaces and '+=' appends to the existing value.", "quantifier": "all assignment lists", "why_tests_cant": "Unbounded text; quoting and continuation interact.", "anchors": ["src/formats/spice/text.rs: TextKernel::parse, statement_complete, parse_assignment, store_value, ValueParser"]}
{"id": "C36", "title": "Leap-second lookup returns the last table entry not after the instant", "statement": "For every leap-second table, however ordered in the file, the TAI-UTC offset returned for an instant is that of the latest entry whose epoch is not after it, and instants before the table are reported as such.", "quantifier": "all tables and instants", "why_tests_cant": "Table order and boundary instants.", "anchors": ["src/formats/spice/lsk.rs: from_text, tai_minus_utc_at"]}
{"id": "C37", "title": "Calendar dates of leap-second entries convert to the right Julian Date", "statement": "For every Gregorian date of 1901..2099 the Julian Date computed for a leap-second entry is the true one.", "quantifier": "all dates", "why_tests_cant": "Leap-day and month-length boundaries.", "anchors": ["src/formats/spice/lsk.rs: gregorian_to_jd"]}
{"id": "C38", "title": "Spacecraft-clock conversion round-trips", "statement": "For every clock table with increasing clock and ephemeris times and positive rates, converting ephemeris time to ticks and back is the identity, in each partition and across partitions when the table is continuous.", "quantifier": "all tables and times", "why_tests_cant": "Partition boundaries.", "anchors": ["src/formats/spice/sclk.rs: et_to_sclkdp, sclkdp_to_et"]}
{"id": "C39", "title": "Body-fixed rotations send the body's north pole to its tabulated right ascension and declination", "statement": "The body-to-J2000 rotation computed from planetary constants is a proper rotation and maps the body's +Z axis to the direction with the tabulated pole right ascension and declination.", "quantifier": "all pole constants and epochs", "why_tests_cant": "Continuous parameter space; the sign error of one component is zero for special poles.", "anchors": ["src/formats/spice/pck.rs: rotation_to_j2000"]}
{"id": "C40", "title": "Frame rotations compose, invert and are the identity on equal frames", "statement": "For any three registered frames, rotating A to B then B to C equals rotating A to C, rotating back is the transpose, and A to A is the identity.", "quantifier": "all frame registries and epochs with orthogonal base rotations", "why_tests_cant": "All triples of frames and matrices.", "anchors": ["src/spice/context.rs: rotation_naif, frame_to_j2000"]}
{"id": "C41", "title": "Frame resolution terminates for every loaded frame kernel", "statement": "Asking for the rotation of any loaded frame returns a rotation or an error.", "quantifier": "all frame kernels", "why_tests_cant": "A cyclic relative-frame definition overflows the stack instead of failing an assertion.", "anchors": ["src/spice/context.rs: frame_to_j2000"]}
{"id": "C42", "title": "Attitude interpolation yields unit quaternions, hits the records and ignores quaternion sign", "statement": "At every record epoch the attitude returned is that record's, between records the quaternion is of unit norm, and negating any stored quaternion does not change the rotation returned.", "quantifier": "all attitude tables and epochs", "why_tests_cant": "Continuous parameter space.", "anchors": ["src/formats/spice/ck.rs: slerp, CkSegment1::evaluate, normalize"]}
{"id": "C43", "title": "Twilight classification partitions sun altitudes in order", "statement": "Every sun altitude belongs to exactly one twilight class, classes get darker as the sun descends, and the class boundaries are the documented thresholds with the documented side at equality.", "quantifier": "all altitudes", "why_tests_cant": "Behaviour exactly at boundaries; documents disagree there.", "anchors": ["src/event/solar/classification.rs: twilight_classification", "src/event/solar/night_types.rs"]}
{"id": "C44", "title": "Moon phase labels partition the elongation circle in lunation order", "statement": "Every elongation, normalised or not, gets exactly one of the eight labels, principal phases are the elongations within half the configured window of 0, 90, 180 and 270 degrees, and labels advance in lunation order.", "quantifier": "all elongations and threshold settings", "why_tests_cant": "Wraparound at 0/360.", "anchors": ["src/event/lunar/phase.rs: MoonPhaseLabel::from_elongation, PhaseThresholds"]}
{"id": "C45", "title": "Moon illuminated fraction, phase angle and elongation stay in range and agree", "statement": "The illuminated fraction is (1+cos i)/2 of the phase angle of the Sun-Earth-Moon triangle and lies in [0,1], the elongation lies in [0, 2 pi), and 'waxing' holds exactly when the elongation is strictly between 0 and pi.", "quantifier": "all Sun/Moon positions", "why_tests_cant": "Clamping and branch cuts.", "anchors": ["src/event/lunar/phase.rs: phase_angle_from_triangle, elongation_from_longitudes, moon_phase_geocentric, moon_phase_topocentric"]}
{"id": "C46", "title": "Azimuth range test equals membership in the compass arc", "statement": "For 0 <= min <= max <= 360 the test used for azimuth range searches holds exactly when the azimuth lies on the arc from min clockwise to max, and for min > max exactly on the wrapped arc through north.", "quantifier": "all azimuths and ranges", "why_tests_cant": "Boundary and wraparound directions.", "anchors": ["src/event/azimuth/events.rs: make_az_cosine_fn, azimuth_range_periods", "src/event/azimuth/types.rs: AzimuthQuery"]}
{"id": "C47", "title": "Azimuth crossings are reported only at the requested bearing", "statement": "Every crossing returned for a bearing is an instant at which the azimuth equals the bearing.", "quantifier": "all azimuth motions and bearings", "why_tests_cant": "The opposite bearing crosses only for bodies that circle the observer; tests use short windows.", "anchors": ["src/event/azimuth/events.rs: azimuth_crossings, make_az_bearing_sin_fn"]}
{"id": "C48", "title": "Azimuth unwrapping is consistent for every evaluation history", "statement": "For every sequence of evaluations, each unwrapped value equals the raw azimuth modulo a full turn and differs from the previous one by at most half a turn; if the true motion moves less than half a turn between evaluations, unwrapped values equal the true continuous azimuth up to one constant, in whatever order times are evaluated.", "quantifier": "all evaluation histories", "why_tests_cant": "Stateful closure: quantifies over histories.", "anchors": ["src/event/azimuth/events.rs: make_az_unwrapped_fn"]}
{"id": "C49", "title": "Orbit message calendar epochs convert to Julian Dates and back", "statement": "Writing an epoch as a calendar date and reading it back gives the same instant to the printed precision, for every day of the Gregorian calendar in the supported range, with months 1..12 and days valid for the month.", "quantifier": "all days and times of day", "why_tests_cant": "Leap years, centuries, and rounding of seconds up to sixty.", "anchors": ["src/formats/ccsds/oem.rs: jd_to_iso8601, iso8601_to_jd"]}
{"id": "C50", "title": "Reading an orbit message keeps every state and skips covariance and manoeuvre blocks", "statement": "Every state line of an OEM file ends up, in order, in the segment whose metadata precede it; covariance and manoeuvre blocks, wherever they appear, do not change the segments or states returned.", "quantifier": "all well-formed files, any number of segments and blocks", "why_tests_cant": "Unbounded line sequences.", "anchors": ["src/formats/ccsds/oem.rs: read_oem"]}
{"id": "C51", "title": "XML text escaping is reversible and emits no markup", "statement": "Escaping any text produces no '<', '>' or '\"' and every '&' it produces begins one of the four entities; unescaping gives the original text.", "quantifier": "all strings", "why_tests_cant": "Order of replacements matters for strings containing entities.", "anchors": ["src/formats/ccsds/oem.rs: xml_escape"]}
{"id": "C52", "title": "Streaming and batch SP3 readers agree", "statement": "For every input, pulling epochs from the streaming reader until it ends yields the same header and the same epochs as the batch reader, and reports an error for the same files and line.", "quantifier": "all line sequences", "why_tests_cant": "Unbounded inputs, two independent implementations.", "anchors": ["src/formats/igs/sp3.rs: read_sp3, Sp3Stream::new, Sp3Stream::next_epoch"]}
{"id": "C53", "title": "Permissive RINEX navigation parsing never fails or panics on a malformed record", "statement": "In permissive mode every text is parsed without error: malformed records are dropped and well-formed ones kept; in strict mode a text is accepted only if no record is malformed.", "quantifier": "all texts", "why_tests_cant": "Short records in the middle of files.", "anchors": ["src/formats/rinex/nav.rs: parse_rinex_nav_with_mode"]}
{"id": "C54", "title": "Written RINEX navigation records can be read back", "statement": "Every navigation record written by the library is read back with the same fields to the printed precision.", "quantifier": "all records with finite fields", "why_tests_cant": "Field width collisions need a sign and a two-digit exponent together.", "anchors": ["src/formats/rinex/nav.rs: write_rinex_nav, fmt_d, parse_d"]}
{"id": "C55", "title": "Spacecraft-clock kernel (binary) coefficient files parse exactly or are rejected", "statement": "Parsing accepts a byte string iff its declared sizes match its length, and returns exactly the numbers stored.", "quantifier": "all byte strings", "why_tests_cant": "Adversarial lengths.", "anchors": ["src/formats/sck.rs: parse_sck"]}
{"id": "C56", "title": "C interface: codes round-trip, null outputs are never written, and panics become status codes", "statement": "Converting a Rust value to its C code and back is the identity and unknown codes are rejected; a call with a null output pointer returns the null-pointer status and writes nothing; a panic inside a call becomes the internal-panic status; a returned array is released exactly once by the matching free function with the same length.", "quantifier": "all codes, pointers and call sequences", "why_tests_cant": "All 2^32 codes; allocation histories.", "anchors": ["siderust-ffi/src/ffi_utils.rs", "siderust-ffi/src/error.rs"]}
{"id": "C57", "title": "Daily solar search covers the whole window", "statement": "Every instant of the query window lies in the influence interval of some processed day, consecutive influence intervals leave no gap, and a candidate event in the window is never discarded.", "quantifier": "all windows and longitudes", "why_tests_cant": "Unbounded windows; boundaries between days.", "anchors": ["src/event/solar/daily_events.rs: crossings_impl, transit_day_influence_window, candidate_near_query_window"]}
{"id": "C58", "title": "GPS-week short names identify the date", "statement": "For dates from 1980-01-06 on, the (week, day-of-week) pair in a short product name identifies the date uniquely, and long-name sample tokens have three characters.", "quantifier": "all dates and sample rates", "why_tests_cant": "Infinite families; token overflow at 100 hours.", "anchors": ["src/pod/product/naming.rs: sp3_short_filename, sample_rate_to_lfn"]}
{"id": "C59", "title": "Equatorial to horizontal conversion is a rotation", "statement": "The altitude and azimuth returned for a right ascension, declination, hour angle and latitude are those of the rotated unit vector: rebuilding the unit vector from them gives the rotated direction, the altitude is in [-90,90] and the azimuth in [0,360).", "quantifier": "all directions, latitudes and sidereal angles", "why_tests_cant": "Continuous domain with branch cuts at zenith and north.", "anchors": ["src/event/horizontal.rs: equatorial_to_horizontal_true_of_date_with_ctx, star_horizontal_with_policy"]}
{"id": "C60", "title": "The extrema scan reports the extrema of the function, in order", "statement": "find_extrema finishes for every positive step, reports extrema in time order, each inside the period, with its value and bracketed by three samples that rise and fall (or fall and rise); and every peak or valley that is isolated by two steps and lies a step away from the ends is reported.", "quantifier": "all functions, periods, steps and tolerances", "why_tests_cant": "Function-valued input; the samples fall anywhere relative to the extremum.", "anchors": ["src/event/search/extrema.rs: find_extrema_tol, maximize_tol, minimize_tol"]}
{"id": "C61", "title": "The Type 2 velocity is the exact derivative of the position", "statement": "Strictly inside a record, the velocity returned for a Type 2 segment is the time derivative of the position function the same API returns (km/s in the kernel reader, 86400 times it in km/day in the JPL backend).", "quantifier": "all segments with positive radius, all epochs inside a record, all Chebyshev coefficients", "why_tests_cant": "Derivative is a limit over a function; tests compare finite differences at a few epochs.", "anchors": ["src/formats/spice/segment.rs: evaluate_type2", "src/ephemeris/jpl/eval.rs: try_velocity_et"]}
{"id": "C62", "title": "The TT to ET conversion solves the documented equation", "statement": "For every Julian Date the returned ephemeris seconds are within 1e-21 s (exact arithmetic) of the unique solution of ET = TT + K sin(E), E = M + eB sin M, M = M0 + M1 ET; they differ from TT by at most 1.657 ms (plus that error) and keep the order of instants that are a nanosecond or more apart.", "quantifier": "all Julian Dates", "why_tests_cant": "Unbounded input; convergence and uniqueness of a fixed point are not testable.", "anchors": ["src/ephemeris/jpl/eval.rs: jd_tt_to_spice_et_seconds"]}
{"id": "C63", "title": "A segment stack serves an epoch from the last segment that can", "statement": "selecting a segment for an epoch returns the last one in load order whose descriptor interval and record table both contain the epoch, and fails exactly if there is none.", "quantifier": "all stacks and epochs", "why_tests_cant": "Precedence depends on the order and overlap of arbitrarily many segments.", "anchors": ["src/ephemeris/jpl/eval.rs: DynSegmentStack::select_et"]}
{"id": "C64", "title": "Orientation constants read from a text PCK do not depend on hash map iteration order", "statement": "Two orders of the same variables of a text PCK give the same table of bodies (pole, prime meridian, radii), or both fail.", "quantifier": "all variable tables, all permutations", "why_tests_cant": "The order of a HashMap iteration is randomised per process; a test sees one order.", "anchors": ["src/formats/spice/pck.rs: PckKernel::from_text"]}
{"id": "C65", "title": "Principal phase events are reported only at the phase's elongation, in order, and none passed by the scan is lost", "statement": "Every event returned by the principal phase search lies in the window, has an elongation equal to the one of its phase up to full turns (and the root finder's residual), never the alias half a turn away; the events are in order of time; and a phase passed between two scan points while the elongation moves less than half a turn is reported.", "quantifier": "all elongation functions, windows, steps and root finders with the stated contract", "why_tests_cant": "Quantifies over elongation functions; the alias is filtered by a numeric threshold.", "anchors": ["src/event/lunar/phase.rs: find_phase_events, angle_diff"]}
{"id": "C66", "title": "An orbit ephemeris message that is written reads back", "statement": "Writing metadata and a non-empty list of states and reading the text gives one segment with the same metadata and the same states in order, to the printed precision.", "quantifier": "all state lists, all names that fit on a line", "why_tests_cant": "Names may be empty or contain '=', any number of states, seconds rounding.", "anchors": ["src/formats/ccsds/oem.rs: write_oem, read_oem"]}
{"id": "C67", "title": "A record read from an SP3 file is exactly the content of the file", "statement": "The header is the lines before the first epoch line; each epoch line up to EOF gives one epoch with the date and time written; each position line gives one position, in order, in its epoch; no input makes the reader panic.", "quantifier": "all inputs, any number of lines", "why_tests_cant": "Unbounded files, arbitrary text, byte slicing of non-ASCII lines.", "anchors": ["src/formats/igs/sp3.rs: read_sp3"]}
{"id": "C68", "title": "An SP3 record that is written reads back", "statement": "Writing a record and reading the text returns the same header, times, satellites and order, with coordinates and clocks to the printed precision.", "quantifier": "all records, any number of epochs and satellites", "why_tests_cant": "Rounding of seconds to sixty, leap seconds, infinities and NaN.", "anchors": ["src/formats/igs/sp3.rs: write_sp3, read_sp3"]}
{"id": "C69", "title": "Evaluating a fitted Lagrange-point kernel uses the record that covers the time, and a fit leaves no gap", "statement": "Evaluation at a time returns the Chebyshev value of the first record whose interval holds the time; outside all records it returns the out-of-range error with the covered range; a table with a ragged length or no records is refused; a fit of a range with a positive block length gives records that cover every time of the range.", "quantifier": "all record tables, all times, all ranges and block lengths", "why_tests_cant": "The number of records and the position of the time are unbounded; gaps appear only at rounding boundaries between blocks.", "anchors": ["src/ephemeris/lagrange/mod.rs:173-219", "src/ephemeris/lagrange/fit.rs:202-255"]}
{"id": "C70", "title": "A CPF file is read as its position records, in order, with the times they state", "statement": "Reading in strict mode succeeds exactly when every position record before the end mark is complete and has a valid date; it returns them in order with the calendar date of the Modified Julian Day and the time of the seconds of the day; permissive mode leaves out incomplete records; no input makes the reader panic.", "quantifier": "all texts, both modes", "why_tests_cant": "Unbounded input; overflow of day arithmetic and dates at month ends need particular day numbers.", "anchors": ["src/formats/ilrs/cpf.rs:335-490"]}
{"id": "C71", "title": "A CPF file that is written reads back", "statement": "Writing a file and reading the text returns the same header, step and times, and positions to the printed millimetre, in both modes.", "quantifier": "all files, any number of entries", "why_tests_cant": "Rounding of the seconds at the end of a day, empty header fields, fractional steps.", "anchors": ["src/formats/ilrs/cpf.rs:278-331", "src/formats/ilrs/cpf.rs:335-490"]}
{"id": "C72", "title": "Centre shifts through the C interface preserve the point", "statement": "Changing the reference centre of a position through the C interface, or converting it to body-centric coordinates and back, always describes the same point of space: shifts compose and invert, and the returned position with its unit and centre denotes the point that went in, whatever the length unit; centre codes outside the documented ones are refused.", "quantifier": "for all positions, units, centres, orbits and ephemeris offsets", "why_tests_cant": "Tests use one or two positions in au at one date; the claim quantifies over every unit, every centre pair and every ephemeris value.", "anchors": ["siderust-ffi/src/coordinates.rs:940-1043", "siderust-ffi/src/coordinates.rs:1232-1340"]}
{"id": "C73", "title": "Directions through the C interface denote the direction the Rust API computes", "statement": "The polar and azimuth angles returned by the C frame change and horizontal conversion are the polar angle (altitude) and the azimuth of the direction computed by the Rust API for the same input, labelled with the requested frame; unsupported frames are refused.", "quantifier": "for all source frames, directions, dates and observers", "why_tests_cant": "The tests of the horizontal conversion only check that both angles are finite, which an exchange of the two angles passes.", "anchors": ["siderust-ffi/src/coordinates.rs:36-38", "siderust-ffi/src/coordinates.rs:181-450"]}
{"id": "C74", "title": "A C subject stands for the thing it describes", "statement": "Altitude and azimuth queries through the C interface on a subject give the result of the Rust API on the thing the subject describes: the body, the star, the direction in its stated frame, or the target with its stated epoch and proper motion.", "quantifier": "for all subjects, instants, windows and searches", "why_tests_cant": "The statement compares two interfaces over all subjects and instants; tests exercise one target at its own epoch, where proper motion has no effect.", "anchors": ["siderust-ffi/src/ffi_utils.rs:158-198", "siderust-ffi/src/target.rs:41-204"]}
{"id": "C75", "title": "Uniform scan with Brent refinement: terminates, reports only genuine labelled crossings, loses no sampled sign change", "statement": "scan_labelled_crossings ends for every window, signal and step (zero and negative steps included); every reported crossing lies in the window, has a residual within tolerance or a change of side within twelve time tolerances, and its label says in which direction the signal passes there; results are increasing and at least 1e-8 d apart; a change of side between two consecutive samples, and a sample lying on the threshold while the signal passes, is always reported.", "quantifier": "all windows, steps, signals, thresholds and tolerances", "why_tests_cant": "A test samples a few well-behaved signals; the claim is about every function, including discontinuous ones and ones that touch the threshold on a grid point, and every iteration path of Brent's method.", "anchors": ["src/event/search/scan_fallback.rs:19-276"]}
{"id": "C76", "title": "Segmented Chebyshev search: correct whatever the polynomial fit answers", "statement": "find_labelled_crossings ends for every input; every reported crossing is in the window, genuine to the tolerances on the precise signal and labelled with the direction in which the signal passes, whatever roots, slopes and tail norms the polynomial crate produces; a change of side over a segment is always reported (possibly via the scan fallback), so a signal that starts and ends on different sides never yields an empty result; the start flag tells whether the signal starts above the threshold.", "quantifier": "all windows, signals, thresholds, configurations and all behaviours of the fitting crate", "why_tests_cant": "Tests exercise the fits that the crate happens to produce for smooth astronomical signals; the guarantee must hold when the fit is poor, has spurious roots or has none.", "anchors": ["src/event/search/crossings.rs:79-422"]}
{"id": "C77", "title": "Altitude crossing queries answer about the altitude angle", "statement": "crossings(target, window, threshold) ends for every target, window and tolerance; for thresholds within -90°..90° every event lies in the window, the altitude there reaches or passes the threshold angle within the tolerance, and 'rising'/'setting' states on which side the altitude is before and after, although the search compares sines.", "quantifier": "all altitude curves within ±90°, windows, thresholds, tolerances and behaviours of the polynomial fit", "why_tests_cant": "The search works on sin(altitude); tests compare a few rise and set times and cannot show that comparing sines decides about angles for every curve and threshold.", "anchors": ["src/event/altitude/events.rs:45-175", "src/event/altitude/search.rs:150-200"]}
{"id": "C78", "title": "Above, below and band periods partition the window", "statement": "The periods of above_threshold are ordered, disjoint and inside the window; below_threshold is their complement in the window and altitude_ranges the instants above the lower and not above the upper bound; empty windows give no periods.", "quantifier": "all windows, thresholds, targets and period algebras meeting their contract", "why_tests_cant": "Tests compare counts of periods for chosen nights; overlap or gaps arise for particular orders of close crossings.", "anchors": ["src/event/altitude/events.rs:250-452", "src/event/search/periods.rs:15-46"]}
{"id": "C79", "title": "Lunar tables answer every instant with bounded interpolation error", "statement": "A lookup in the lunar position and nutation tables answers for every instant and window without failing; inside the window padded by one day it interpolates between nodes enclosing the instant, outside the tables it falls back to the theory; the nutation error is at most 1/1152 of the second-derivative bound and the position error at most twice the coordinate error of the four-day fit.", "quantifier": "all windows, instants, series and fits", "why_tests_cant": "Index arithmetic at segment and table ends depends on the window; tests sample few instants.", "anchors": ["src/event/lunar/moon_cache.rs:67-330"]}
{"id": "C80", "title": "Cached lunar altitude stays close to the direct altitude", "statement": "The altitude evaluated by the lunar searches is defined for every instant and its sine differs from the directly computed altitude's by at most a bound linear in the nutation error, the difference of the two nutation series and the position error over the Moon's distance; the altitude is the elevation above the plane perpendicular to the zenith.", "quantifier": "all sites, windows, instants and models with the stated error bounds", "why_tests_cant": "Tests compare both chains at some instants with a tolerance; they cannot bound the error everywhere.", "anchors": ["src/event/lunar/moon_cache.rs:405-475", "src/event/horizontal.rs:93-218", "src/event/lunar/altitude_periods.rs:56-64"]}
{"id": "C81", "title": "Elliptic propagation obeys Newton's law", "statement": "For every valid element set and every date, kepler_position, PreparedOrbit::position_at, position_with_mu and MeanMotionOrbit::position_at answer without failing, and the answers lie, up to the solver's residual, on the one trajectory that satisfies Newton's inverse-square law and passes the periapsis of the elements at the periapsis date with the right velocity; the gravitational parameter is the Gaussian one, the one passed in, or n²a³.", "quantifier": "all element sets with a > 0 and 0 ≤ e < 1, all dates", "why_tests_cant": "tests compare a few positions with tables; none can show that the curve satisfies a differential equation for all times", "anchors": ["src/astro/orbit.rs", "src/astro/conic_equations.rs"]}
{"id": "C82", "title": "Conic orbits", "statement": "ConicOrbit::position_at follows Newton's law for ellipses and hyperbolas given by periapsis distance, a failing solver gives an error and never a panic on hyperbolas, and parabolic elements are refused at construction and at propagation.", "quantifier": "all periapsis distances, eccentricities and dates", "why_tests_cant": "hyperbolic motion over an unbounded range of dates cannot be sampled exhaustively", "anchors": ["src/astro/conic.rs", "src/astro/conic_equations.rs"]}
{"id": "C83", "title": "Element validation", "statement": "The checked constructors accept exactly the element sets the propagators can handle, return them unchanged, and a prepared orbit made from them never panics at any date; no other way of obtaining a prepared orbit bypasses the check.", "quantifier": "all element sets, all dates", "why_tests_cant": "the bypass is a conversion no test tries with invalid input", "anchors": ["src/astro/orbit.rs"]}
{"id": "C84", "title": "Propagation paths agree", "statement": "The direct and the prepared heliocentric propagation agree for every element set and date, the two solar constants used by different orbit types agree, and the C interface uses the gravitational parameter of the orbit's own centre like the Rust transformations.", "quantifier": "all element sets, dates and centres", "why_tests_cant": "tests exercise each path alone", "anchors": ["src/astro/conic_equations.rs", "src/astro/units.rs", "siderust-ffi/src/coordinates.rs"]}
{"id": "C85", "title": "Stellar space motion is uniform and straight", "statement": "When propagate_space_motion answers, the star is exactly at the point reached by uniform rectilinear motion from the catalogue place with the catalogue velocity; it fails only at a celestial pole, for a non-positive parallax, or when the star passes through the origin.", "quantifier": "all positions, rates, parallaxes, radial velocities and dates", "why_tests_cant": "tests compare a handful of stars over decades with tolerances", "anchors": ["src/astro/proper_motion.rs"]}
{"id": "C86", "title": "Catalogue motion of a star", "statement": "Star::position_at moves a star from the epoch of its catalogue entry by its rates, independently of which right-ascension convention is used; tracking and event searches use the moved position; rates per day and per year mean the same motion.", "quantifier": "all stars and dates", "why_tests_cant": "built-in stars have epoch J2000 and no proper motion, so tests cannot see a wrong epoch", "anchors": ["src/bodies/stars.rs", "src/astro/proper_motion.rs", "src/event/altitude/provider.rs"]}
{"id": "C87", "title": "Weighted least squares", "statement": "Whatever rows NormalEquations accepted, solve returns the one parameter change with the smallest weighted sum of squared residuals and the inverse information matrix as covariance; it fails exactly when some parameter direction is seen by no measurement; invalid rows are refused with the documented error and leave the accumulator unchanged.", "quantifier": "all parameter counts, all sequences of rows, also with repeated and unordered indices", "why_tests_cant": "optimality over all parameter vectors and rejection of every malformed row cannot be sampled", "anchors": ["src/pod/estimation/wls.rs"]}
{"id": "C88", "title": "Sequential filter", "statement": "Through any run of time and measurement updates the covariance of OrbitEkf stays symmetric and positive semidefinite; each measurement update uses the gain with the smallest error covariance; assimilating linear measurements one after the other gives exactly the batch least-squares estimate with prior, in any order; a refused measurement leaves the filter unchanged.", "quantifier": "all states, covariances, measurements, runs and orders", "why_tests_cant": "equality with the batch estimator for all measurement sequences is a theorem, not an example", "anchors": ["src/pod/estimation/sequential.rs"]}
{"id": "C89", "title": "Gauss–Newton iteration", "statement": "gauss_newton reports success only after at least two iterations with the last update and the last change of reduced chi-square below their tolerances; for linear observable problems it converges, from every start, to the least-squares solution.", "quantifier": "all assemblers, options and starting points", "why_tests_cant": "tests use one-dimensional problems with tolerances chosen to make them stop", "anchors": ["src/pod/estimation/nonlinear.rs"]}
{"id": "C90", "title": "Process noise matrix", "statement": "ProcessNoiseModel::q_matrix succeeds exactly for documented parameters and a duration that is not negative; its result is the covariance that the documented noises (white acceleration, Gauss–Markov scale factors, random walks) accumulate in that time: symmetric, positive semidefinite, zero outside the announced dimension, and consistent when the interval is cut; is_psd accepts it.", "quantifier": "all noise models, durations and cuts of an interval", "why_tests_cant": "tests check a few entries and one positive-definiteness case", "anchors": ["src/pod/process/noise.rs 124-261"]}
{"id": "C91", "title": "Variance growth and noise schedules", "statement": "A Gauss–Markov variance grows from zero to its steady state and composes over successive intervals; a piecewise schedule gives the level of the segment containing the time and the last level afterwards.", "quantifier": "all parameters, times and schedules", "why_tests_cant": "covers all real times, including negative steps, and all schedules", "anchors": ["src/pod/process/noise.rs 74-88, 403-426"]}
{"id": "C92", "title": "Propagation helpers", "statement": "The fixed-step integrator cuts a duration into the least number of equal steps that fit it exactly; the matrices along a variational arc are the derivatives of the states with respect to the initial state; finite-difference parameter columns converge to the derivative; the relative column difference vanishes only for equal columns.", "quantifier": "all durations, step limits, differentiable flows and columns", "why_tests_cant": "derivative statements over all flows are beyond testing", "anchors": ["src/pod/propagation/integrators.rs 101-125", "src/pod/propagation/variational.rs 53-61, 124-157, 270-293"]}
{"id": "C93", "title": "Residual statistics", "statement": "ResidualStats of a non-empty slice are its count, mean, sample deviation, RMS and extremes, independent of order and mutually consistent; grouped statistics describe exactly the values of their label.", "quantifier": "all lists of residuals and all labels", "why_tests_cant": "quantifies over all lists and permutations", "anchors": ["src/pod/qc/residuals.rs 52-120"]}
{"id": "C94", "title": "Orbit comparison", "statement": "rtn_diff compares as many pairs as the shorter list has; the 3D RMS of the summary is the RMS of the distances in metres whatever the local frame, and splits into the three component RMS values.", "quantifier": "all pairs of state lists and all isometric local frames", "why_tests_cant": "holds for all rotations and list lengths; the failure depends on degenerate states", "anchors": ["src/pod/qc/orbit_compare.rs 55-124"]}
{"id": "C95", "title": "Thrust arcs and mass ledger", "statement": "A thrust arc accelerates by thrust over mass along its unit direction exactly during its half-open interval; the ledger's books balance after any sequence of entries, each Δv being the integral of thrust over remaining mass, and the rocket equation holds overall.", "quantifier": "all arcs, masses and sequences of entries", "why_tests_cant": "induction over entry sequences and an integral identity", "anchors": ["src/pod/force/thrust.rs 74-147", "src/pod/force/low_thrust.rs 89-175"]}
{"id": "C96", "title": "Range corrections", "statement": "Applying phase-centre and tide corrections approximates the distance from the displaced receiver to second order from below, in any order of registration; the Shapiro correction never shortens a range and has the documented value for the true range.", "quantifier": "all correction lists and positions", "why_tests_cant": "order-independence and error bound over all lists and geometries", "anchors": ["src/pod/observation/corrections.rs 157-418"]}
{"id": "C97", "title": "GNSS residuals", "statement": "Code and phase residuals of one path differ by twice the ionospheric delay and the ambiguity; the ionosphere-free combination removes the ionosphere model; atmospheric delays are positive and the tropospheric one falls with elevation; the relativistic clock term has the documented value.", "quantifier": "all observations, frequencies and geometries", "why_tests_cant": "relations between residuals for all inputs", "anchors": ["src/pod/observation/gnss_obs.rs 157-525"]}
{"id": "C98", "title": "Laser residuals and batches", "statement": "A laser residual is taken at the given state with all corrections lengthening the predicted range; a batch evaluates exactly the observations within the announced tolerance of the epoch.", "quantifier": "all observations, states and batches", "why_tests_cant": "independence of the state can only be shown for all states", "anchors": ["src/pod/observation/slr_obs.rs 66-234", "src/pod/observation/batch.rs 109-147"]}
{"id": "C99", "title": "Periodic empirical accelerations", "statement": "The periodic empirical acceleration repeats after each cycle, and each component is a harmonic of its period bounded by its amplitude.", "quantifier": "all coefficients, periods, multipliers and epochs", "why_tests_cant": "periodicity for all epochs", "anchors": ["src/pod/force/empirical_periodic.rs 130-164"]}
{"id": "C100", "title": "Earth rotation angle and sidereal time follow the IAU definitions", "statement": "earth_rotation_angle returns, for every UT1 date and every two-part split of it, the principal value of 2π(0.7790572732640 + 1.00273781191135448·T); Greenwich mean sidereal time is that angle plus the precession polynomial in TT, and apparent sidereal time adds the nutation in longitude times the cosine of the mean obliquity and the 34-term complementary series.", "quantifier": "for all pairs of reals (UT1, TT) and every two-part split of the date, all nutations", "why_tests_cant": "Tests compare a handful of dates with tabulated values; they cannot show the reduction modulo one turn, the split handling and the table of terms to be right for all dates.", "anchors": ["src/astro/era.rs", "src/astro/sidereal.rs"]}
{"id": "C101", "title": "Frame rotations are consistent along every path", "statement": "Between any two of the frames (ICRS, ICRF, GCRS, ecliptic and equator of J2000, EME2000, mean and true equator of date, TEME, CIRS, TIRS, ITRF, ECEF, Galactic, FK4) every chain of available rotations gives the same matrix, that matrix is a proper rotation, and the reverse request gives its inverse.", "quantifier": "for all dates, contexts, frame pairs and chains of any length", "why_tests_cant": "Round-trip tests cover pairs at sample dates, not all paths through a network of some hundred implementations.", "anchors": ["src/coordinates/transform/providers/mod.rs:100-320", "src/coordinates/transform/providers/frames_inertial.rs", "src/coordinates/transform/providers/frames_earth.rs", "src/coordinates/transform/providers/frames_teme.rs", "src/coordinates/transform/providers/frames_catalog.rs"]}
{"id": "C102", "title": "The intermediate pole is the pole of the intermediate frame", "statement": "The coordinates X, Y of the celestial intermediate pole are those of the pole of the true equator of date, and the GCRS→CIRS matrix carries the unit vector (X, Y, Z) to the third axis; CIRS and the true equator of date therefore share their pole.", "quantifier": "for all dates, nutations and pole offsets", "why_tests_cant": "The tests check orthogonality and that the matrix is near the identity, which a wrong sign of X and Y does not disturb.", "anchors": ["src/astro/cio.rs:60-170", "src/coordinates/transform/providers/mod.rs:214-228"]}
{"id": "C103", "title": "Ecliptic of date, mean and true", "statement": "The true ecliptic longitude of date exceeds the mean one by exactly the nutation in longitude, latitudes are equal, and the conversions from the mean equator of date agree with those from GCRS.", "quantifier": "for all dates, nutations and directions", "why_tests_cant": "A test at some dates cannot separate the nutation in obliquity, which must cancel, from a small error.", "anchors": ["src/astro/precession.rs", "src/coordinates/transform/ecliptic_of_date.rs:84-261"]}
{"id": "C104", "title": "Polar motion moves the pole to its published coordinates", "statement": "The TIRS→ITRF matrix is a proper rotation that puts the intermediate pole at (sin xp cos yp, −sin yp, cos xp cos yp) up to the rotation by s', composed in the order of the cited standard.", "quantifier": "for all xp, yp, s'", "why_tests_cant": "With sub-arcsecond angles, the order of the factors changes results below test tolerances.", "anchors": ["src/astro/polar_motion.rs:50-90"]}
{"id": "C105", "title": "Observing sites", "statement": "Geocentric→topocentric→geocentric is the identity; the site position keeps its distance from the geocentre, agrees with the ITRF→J2000 frame rotation, turns eastward with the Earth, and the diurnal velocity is its derivative.", "quantifier": "for all sites, frames, dates and contexts", "why_tests_cant": "Tests check round trips and distances, which hold for a site turning the wrong way.", "anchors": ["src/coordinates/transform/centers/position/to_topocentric.rs:53-110", "src/coordinates/observation/observer_state.rs:120-170"]}
{"id": "C106", "title": "Catalogue frames", "statement": "The Galactic and FK4 matrices are proper rotations to the precision they are given in, and the Galactic one carries the Galactic pole to its ICRS direction.", "quantifier": "for all contexts and dates with the literal matrices", "why_tests_cant": "The tests check only round trips, lengths and non-identity, which the transposed matrix also passes.", "anchors": ["src/coordinates/transform/providers/frames_catalog.rs:16-113"]}
{"id": "C107", "title": "Eclipses and occultations", "statement": "The occultation fraction is between 0 and 1 and equals the part of the target's apparent disc covered by the occulting disc; an eclipse is reported exactly when part of the light source is hidden behind the body, umbra when all of it is, and a body beyond the source hides nothing.", "quantifier": "all observer, target and occulter positions and radii", "why_tests_cant": "tests use a handful of collinear geometries at large distance; the shadow of a body seen from close by, and areas for all separations, are statements about a continuum", "anchors": ["src/mission/geometry/occultation.rs:51-108", "src/mission/geometry/eclipse.rs:29-73"]}
{"id": "C108", "title": "Obstructed lines of sight", "statement": "line_of_sight_obstructed returns true if and only if the segment from observer to target meets the closed ball around the origin; it is symmetric and monotone in the radius.", "quantifier": "all positions, all non-negative radii", "why_tests_cant": "iff over all segments and balls", "anchors": ["src/mission/geometry/occultation.rs:17-44"]}
{"id": "C109", "title": "Azimuth, elevation, range and range rate", "statement": "The pointing reproduces the line of sight in the local east-north-up basis (azimuth from north through east in one turn, in the unit of the type), the range is the distance, the range rate its derivative, the light time range over c, and the status reports obstruction.", "quantifier": "all distinct observer and target states, all sites", "why_tests_cant": "the inverse relation and the derivative hold for all directions; tests check a zenith target", "anchors": ["src/mission/geometry/az_el_range.rs:72-108", "src/mission/geometry/local_frame.rs:31-40"]}
{"id": "C110", "title": "Terrain masks", "statement": "The mask is the piecewise linear profile through the given samples around the circle: it passes through every sample, stays between neighbours, wraps at a full turn, and a target clears it exactly when it is at or above the profile.", "quantifier": "all sample lists and azimuths", "why_tests_cant": "for all sample sets and all azimuths, including ones outside one turn", "anchors": ["src/mission/geometry/terrain_mask.rs:22-69"]}
{"id": "C111", "title": "Beta angle and solar time", "statement": "The beta angle is the elevation of the Sun above the orbit plane, positive on the side of the angular momentum; local solar time is a time of day with noon under the Sun advancing one hour per 15 degrees of east longitude; LTAN follows the same rule.", "quantifier": "all non-degenerate states, all longitudes", "why_tests_cant": "statement over all orientations and all real longitudes", "anchors": ["src/mission/geometry/orbit_relative.rs:23-68"]}
{"id": "C112", "title": "Fields of view", "statement": "A conical field accepts exactly the directions within its half angle; a direction accepted by the rectangular test lies inside the pyramid.", "quantifier": "all fields and directions", "why_tests_cant": "geometric soundness for every direction", "anchors": ["src/mission/geometry/fov.rs:37-52"]}
{"id": "C113", "title": "Aberration is the Lorentz transformation of the incoming ray", "statement": "For every star direction and every observer velocity below the speed of light, the aberrated direction is the one in which the moving observer sees the light (the space part of the boosted wave vector); it is a unit vector, its cosine to the apex follows the relativistic addition law, it never moves away from the apex, and removing aberration with the same velocity gives the direction back; positions keep their distance.", "quantifier": "for all unit directions, all velocities slower than light, all positions and epochs", "why_tests_cant": "Tests compare a handful of directions with first-order aberration at Earth's speed; a wrong gamma factor or sign is below their tolerance, and exact invertibility is a statement about all directions.", "anchors": ["src/astro/aberration.rs:53-175"]}
{"id": "C114", "title": "Light deflection turns a star away from the body by the Einstein angle", "statement": "A body of Schwarzschild radius r at distance d moves a star at angle θ from it to θ + arctan((r/d) cot(θ/2)) on the great circle through body and star; results are unit vectors; without a body or in its very direction the star stays; the scalar magnitude is the tangent of that angle; the approximate inverse recovers the star within an explicit second-order bound.", "quantifier": "for all unit directions, distances, radii and angles", "why_tests_cant": "Limb values of 1.75 arcseconds check one angle; the direction of the displacement (away from the body), its exact dependence on the angle and the error of the inverse are statements over the sphere.", "anchors": ["src/astro/light_deflection.rs:101-305"]}
{"id": "C115", "title": "Correction policies form a set of independent stages and the report stays within the request", "statement": "`contains` is inclusion of stages, `union` is the least upper bound, APPARENT is exactly the four stages of the canonical order, each listed once; after any sequence of recorded stages the report holds exactly these stages, within the request; and the canonical order is the physical one (deflection at rest, then aberration).", "quantifier": "for all policies and all sequences of recorded stages", "why_tests_cant": "There are 65536 pairs of policies and unboundedly many recording sequences; whether two corrections commute cannot be tested by flags.", "anchors": ["src/astro/apparent.rs:47-159"]}
{"id": "C116", "title": "The altitude and azimuth of a star under a policy are those of its corrected direction", "statement": "For every star, site, time and policy, the altitude has as sine the component along the local zenith of the direction of date, altitude and azimuth together give back the north, east and zenith components, both functions agree, and the result reflects the corrections requested by the policy.", "quantifier": "for all stars, sites, epochs, length-preserving precession matrices and policies", "why_tests_cant": "A test at one site cannot tell a missing aberration (20 arcseconds) from its tolerance, nor see that two policies always give the same result.", "anchors": ["src/event/stellar/altitude_periods.rs:87-138", "src/event/horizontal.rs:243-296"]}
{"id": "C117", "title": "A sky grid covers its zone once, in order, with solid angles that add up", "statement": "For every altitude range and steps, the grid yields exactly len() directions, row by row upwards and eastwards in a row, within the altitude range and with azimuths in [0°, 360°); its cells cover every direction of the zone exactly once; the solid angles attached to the cells add up to that of the zone within δ²/16 of it (δ the altitude step in radians); in the equal-area mode all cells have nearly the same solid angle.", "quantifier": "for all altitude ranges, steps and both modes", "why_tests_cant": "The tests use steps that divide the circle and the default hemisphere; what happens at other steps (overlaps, gaps, azimuth 360°) and how the total depends on the step needs a statement over all steps.", "anchors": ["src/coordinates/sampling.rs:163-316"]}
{"id": "C118", "title": "Third-body perturbation is the tidal acceleration", "statement": "The acceleration returned for Sun and Moon is, for every satellite and body position that do not coincide, the difference of the body's attraction on the satellite and on the Earth, summed over the configured bodies in any order; an unavailable ephemeris or body is an error and never a silently missing term.", "quantifier": "for all positions, gravitational parameters, body lists and ephemerides", "why_tests_cant": "the Battin form is algebraically different from the Newtonian difference; tests compare a few positions with a tolerance", "anchors": ["src/astro/dynamics/forces/third_body.rs:23-214", "src/astro/dynamics/context.rs:232-239"]}
{"id": "C119", "title": "Atmospheric density and drag law", "statement": "Density providers return a positive density that never increases with altitude, reproduce their table and refuse altitudes below the surface; drag opposes the velocity relative to the co-rotating air with magnitude ½ρ Cd A/m v², is refused without atmosphere or below the surface, and the density is taken at the distance from the ellipsoid.", "quantifier": "for all states, tables, coefficients and providers", "why_tests_cant": "a law over all states and tables; tests sample altitudes", "anchors": ["src/astro/dynamics/density.rs:144-259", "src/astro/dynamics/forces/drag.rs:22-107"]}
{"id": "C120", "title": "Eclipse factors and radiation pressure", "statement": "The cylindrical factor is 0 exactly for satellites whose sunward half-line meets the Earth and 1 otherwise; the conical factor is the free part of the solar disc, 0 exactly when every point of the Sun is hidden by the Earth and 1 exactly when none is; the acceleration points away from the Sun with the inverse-square magnitude.", "quantifier": "for all satellite positions outside the Earth, Sun positions, radii and coefficients", "why_tests_cant": "geometry over a continuum of positions, with boundaries that samples miss", "anchors": ["src/astro/dynamics/forces/srp.rs:66-232"]}
{"id": "C121", "title": "Relativity, empirical, and geopotential accelerations", "statement": "The relativistic correction equals the Schwarzschild term and conserves the orbital plane; empirical accelerations have the requested radial, transverse and normal components; the geopotential acceleration is the Earth-fixed field rotated by the Earth rotation angle, without any rotation for zonal fields; coefficient lookup honours degree and order.", "quantifier": "for all states, parameters, fields and epochs", "why_tests_cant": "identities over all states", "anchors": ["src/astro/dynamics/forces/relativity.rs:39-76", "src/astro/dynamics/forces/empirical.rs:41-88", "src/astro/dynamics/forces/geopotential.rs:50-102", "src/astro/dynamics/gravity/egm_low_degree.rs:39-98"]}
{"id": "C122", "title": "Geodetic altitude is the distance to the ellipsoid", "statement": "For every point outside an ellipsoid of flattening at most 1/200, the altitude from four Bowring iterations differs from the Euclidean distance to the ellipsoid by at most 1e-20 of the size of the problem, and does not depend on longitude.", "quantifier": "for all exterior points and flattenings up to 1/200", "why_tests_cant": "convergence of a fixed number of iterations over all points", "anchors": ["src/astro/dynamics/density.rs:261-333"]}
{"id": "C123", "title": "Spacecraft properties and step adapter", "statement": "A spacecraft is accepted exactly if its values are finite, the mass positive and the others non-negative, and carries the right ratios; the fixed-step adapter moves in the direction asked for, by the smaller of the request and its step, and refuses only degenerate requests.", "quantifier": "for all inputs and integrators", "why_tests_cant": "input validation over all values including non-finite ones", "anchors": ["src/astro/dynamics/state.rs:112-150", "src/astro/dynamics/propagation/propagator.rs:67-98"]}
{"id": "C124", "title": "Orbit Parameter Messages are read and written faithfully", "statement": "A file is read as an OPM exactly if it assigns the mandatory keywords and every number parses, the last assignment of a keyword counting; the message then holds what the file says. A message written and read again is the same message. Reading never panics.", "quantifier": "for all texts and all messages whose strings fit on one line", "why_tests_cant": "the reader must be right for every text and the writer for every value", "anchors": ["src/formats/ccsds/opm.rs:175-326"]}
{"id": "C125", "title": "Tracking Data Messages are read and written faithfully", "statement": "A file built of metadata and data blocks is read into exactly the metadata and observations it states, in order; a data line without separator or number is refused; a message written and read again is the same message.", "quantifier": "for all sequences of blocks and all messages", "why_tests_cant": "block structure of arbitrary length", "anchors": ["src/formats/ccsds/tdm.rs:122-302"]}
{"id": "C126", "title": "ORBEX records carry the right epoch and section", "statement": "Reading an ORBEX file succeeds exactly if no record is bad; it returns the orbit, clock and attitude records of the file in order, each in the section of the last marker and with the epoch of the last header before it; an error names the first bad line; an epoch header states the Modified Julian Date of its instant; errors occur in strict mode only.", "quantifier": "for all texts, both parse modes", "why_tests_cant": "the state carried from line to line depends on the whole prefix of the file", "anchors": ["src/formats/igs/orbex.rs:130-309"]}
{"id": "C127", "title": "SINEX stations are the solutions of the file", "statement": "Reading a SINEX file gives the stations whose three coordinates are stated, each coordinate and velocity from the same solution, with the epoch of that solution, independently of the order of the hash map; an error names the first bad line; reading never panics.", "quantifier": "for all texts, both parse modes, all map orders", "why_tests_cant": "hash map iteration order and interleaving of estimates", "anchors": ["src/formats/igs/sinex.rs:143-307"]}
{"id": "C128", "title": "ANTEX catalogues survive writing and reading", "statement": "Reading a written catalogue gives back the same antennas, frequencies and offsets; the file does not depend on the order of the maps and is sorted.", "quantifier": "for all catalogues", "why_tests_cant": "all names, values and map orders", "anchors": ["src/formats/igs/antex.rs:68-189"]}
{"id": "C129", "title": "A mean-elements message is read as what it says", "statement": "Reading an orbit mean-elements message, in keyword or XML form, gives a record exactly when the document gives every required field a readable value; each field of the record then is the value of the last line (keyword form) or first element (XML) of its name, the catalogue number is a number of up to five digits or an Alpha-5 number, the classification is U, C or S, and a present but malformed numeric field is an error. The reader never panics.", "quantifier": "for all texts and all behaviours of the date library", "why_tests_cant": "Texts are unbounded; a missed rule of precedence or a field silently replaced by zero shows only on inputs nobody listed.", "anchors": ["src/formats/tle/omm/kvn.rs:98", "src/formats/tle/omm/xml.rs:98", "src/formats/tle/omm/mod.rs:235"]}
{"id": "C130", "title": "Mean-elements messages survive writing and reading", "statement": "Writing a record in keyword form, as XML or as a JSON record and reading it again gives the record back: names (with any characters in XML), classification and integers exactly, numbers to the decimals written, exactly when they have no more digits than are written, and the epoch to the microsecond written.", "quantifier": "for all records", "why_tests_cant": "The tests write one satellite; digits lost, escapes applied in the wrong order or a catalogue number the reader refuses depend on the value.", "anchors": ["src/formats/tle/omm/kvn.rs:34", "src/formats/tle/omm/xml.rs:32", "src/formats/tle/omm/json.rs:129"]}
{"id": "C131", "title": "Element sets and mean-elements messages convert into each other", "statement": "Turning an element set into a message and back gives the same element set with its designator trimmed and a name; turning a message into an element set and back loses only the ephemeris type. The launch year of a designator is expanded to the century 1957 to 2056.", "quantifier": "for all element sets with an ASCII designator, all messages with a designator of a year between 1957 and 2056", "why_tests_cant": "One designator is tested; the century rule and the slicing of designators depend on the text.", "anchors": ["src/formats/tle/omm/mod.rs:111", "src/formats/tle/omm/mod.rs:154", "src/formats/tle/omm/mod.rs:180"]}
{"id": "C132", "title": "The element set builder returns what was set", "statement": "After any sequence of setter calls, building succeeds exactly when the nine mandatory fields were set; every field has the value set last, optional ones their default if never set; otherwise the error names the first missing mandatory field.", "quantifier": "for all sequences of setter calls", "why_tests_cant": "Sequences of calls are unbounded; a setter writing the wrong field shows only for particular sequences.", "anchors": ["src/formats/tle/builder.rs:102", "src/formats/tle/builder.rs:324"]}
{"id": "C133", "title": "Interpolated Earth orientation lies on the chord of its two neighbours", "statement": "`interpolate(records, mjd)` never panics and answers nothing exactly for an empty table. Strictly inside the table every one of the six parameters lies on the straight line through the two neighbouring records around the epoch; outside, the first or last record is returned as it is. In a table sorted by date the neighbours are unique, every record is reproduced at its own date, and the answer never leaves the interval of its neighbours. Across a leap second UT1-UTC, which steps by one second, must not be interpolated as if it were continuous.", "quantifier": "all tables (any length, sorted or not), all epochs", "why_tests_cant": "the binary search has a different path for every length and epoch; the test interpolates one midpoint of two records, and no test looks at a leap second", "anchors": ["src/formats/iers/eop.rs:121-159"]}
{"id": "C134", "title": "C04 files are read into the numbers they show", "statement": "`read_eop_c04` returns one record per data line, in order, with exactly the numbers of the ten columns (celestial pole offsets in milliarcseconds), passing over comments, blank lines and headings. A line whose columns are not numbers must not become a record with invented values.", "quantifier": "all files made of comments, headings and data lines with any spacing and any further columns", "why_tests_cant": "the space of layouts is unbounded; the tests read two well-formed lines", "anchors": ["src/formats/iers/eop.rs:67-115"]}
{"id": "C135", "title": "The IERS provider reports missing coverage instead of inventing zeros", "statement": "Inside the coverage the provider returns the table's values in the documented units at the modified Julian day of the request; outside it reports the epoch it could not serve. As documented, it never fabricates zero values outside coverage. `jd_ut1` adds UT1-UTC in days; `len` counts the daily rows.", "quantifier": "all tables, all epochs", "why_tests_cant": "the active table is loaded at run time; tests see one bundle and only epochs inside or far outside", "anchors": ["src/astro/eop.rs:86-92", "src/astro/eop.rs:193-255", "src/coordinates/transform/context.rs:165-206"]}
{"id": "C136", "title": "Air mass grows from one at the zenith to the horizon", "statement": "For each of the four formulas `airmass::<F>(z)` is one at the zenith (to three millionths), grows strictly with zenith distance up to the horizon, never exceeds the secant by more than a millionth, stays within six per cent of it down to 60 degrees, and takes the published value at the horizon (5, 40, 31.7). Below the horizon no physical air mass exists and none should be returned.", "quantifier": "all zenith distances, all four formulas", "why_tests_cant": "monotonicity over a continuum; tests evaluate single angles", "anchors": ["src/atmosphere/airmass.rs:48-162"]}
{"id": "C137", "title": "Extinction follows the Bouguer law and optical depths their published laws", "statement": "`transmission` is a fraction of one, multiplies over media and path stretches, is linear in air mass when expressed in magnitudes and falls from zenith to horizon. The Rayleigh depth is positive and falls with wavelength, following the inverse fourth power; it is the sea-level depth scaled by the column of air above the observer. The aerosol depth follows the power law. The site presets give transmissions strictly between 0 and 1.", "quantifier": "all optical depths, air masses, wavelengths, pressures and altitudes", "why_tests_cant": "laws over a continuum of wavelengths and sites; tests compare a few values", "anchors": ["src/atmosphere/extinction.rs:34-36", "src/atmosphere/rayleigh.rs:73-91", "src/atmosphere/mie.rs:55-114", "src/atmosphere/mie.rs:197-200", "src/atmosphere/profile.rs:59-129"]}
{"id": "C138", "title": "Airglow factor and Rayleigh phase function have the geometry they stand for", "statement": "`van_rhijn_factor` is the reciprocal cosine of the angle at which the line of sight crosses the spherical layer, the path length per unit of layer thickness; it is one at the zenith, grows to a finite value at the horizon, stays below the secant, and is NaN exactly for non-finite or non-positive arguments, never infinite. `rayleigh_phase` integrates to one over all directions and is symmetric fore and aft.", "quantifier": "all zenith distances, layer heights, radii, scattering angles", "why_tests_cant": "a geometric identity in space and an integral over the sphere; tests evaluate single points", "anchors": ["src/atmosphere/airglow.rs:47-78", "src/atmosphere/rayleigh.rs:98-101"]}
{"id": "C139", "title": "Laser ranging files are read line by line into exactly what they say", "statement": "The reader of laser ranging files turns a file into the values of its last version, station, target and session lines, with the flat copies agreeing with the structured records, and one normal point for each usable record of type 11, in file order, dated with the session day in force at that line and labelled with its own system or the configuration in force there. Permissive mode reads every file, passing over broken range records; strict mode reads the files without broken range records with the same result and refuses every other file with the number of its first broken line. The reader never panics.", "quantifier": "for all texts, both modes, all calendars and time scales", "why_tests_cant": "State (day, configuration) is carried from line to line; tests hold one station, one session and one or two records.", "anchors": ["src/formats/ilrs/crd.rs:246-445"]}
{"id": "C140", "title": "Normal points carry the right instant and range", "statement": "A normal point carries the one-way range of its time of flight and, for a time of day below 86400 seconds, the instant on the session's day to the nearest nanosecond. Times of flight, return rate and bin size are those of the record.", "quantifier": "for all times of day and of flight, all session days", "why_tests_cant": "Rounding and midnight cases are a matter of all values; tests use one time of day.", "anchors": ["src/formats/ilrs/crd.rs:382-435"]}
{"id": "C141", "title": "Observation files are read back as written", "statement": "Writing a RINEX observation file and reading it gives the same marker, position, interval, code lists and epochs, with every declared value to half of the last written digit and every epoch to 50 ns, for contents which fit the columns; contents which do not fit are not silently changed", "quantifier": "for all observation files: all markers, positions, code lists of any length, any number of epochs and satellites", "why_tests_cant": "Tests write one small file; continuation lines, wide values, undeclared systems and the second of 59.99999995 need all contents", "anchors": ["src/formats/rinex/obs.rs:65-334"]}
{"id": "C142", "title": "The observation writer is canonical and the reader never stops the program", "statement": "The text written depends only on the contents, never on the order in which the hash maps hold them; reading any text returns a file or an error", "quantifier": "for all contents, all orders of the maps, all texts", "why_tests_cant": "Hash order is random from run to run and a test compares one run; the texts are unbounded", "anchors": ["src/formats/rinex/obs.rs:65-334"]}
{"id": "C143", "title": "DORIS files are read record by record", "statement": "Reading a RINEX-DORIS file gives the header fields from their columns, one record per satellite line with the Modified Julian Date of its epoch line, in file order, counts the lines it cannot use, and never stops the program; malformed epochs are not given a time", "quantifier": "for all texts of any number of lines, all dates", "why_tests_cant": "Two tests read files of four lines; the calendar formula, stale epochs and continuation lines need all files", "anchors": ["src/formats/rinex/doris.rs:80-169"]}
{"id": "C144", "title": "A vgosDB side-car is read or refused by line", "statement": "A text side-car is accepted exactly when every line is blank, a comment or a known key with a value; the last value of each key wins; station names separated by commas are read back; a refusal names the first bad line", "quantifier": "for all texts and all station lists", "why_tests_cant": "One documentation example exists; first-error line numbers and repeated keys need all texts", "anchors": ["src/formats/vlbi/vgosdb.rs:88-123"]}
{"id": "C145", "title": "The Lagrange point solver solves what it says", "statement": "The 3×3 linear solver returns the unique solution of the system and refuses every singular matrix; the line search takes the largest of the steps 1, 1/2, …, 1/2048 that does not raise the residual; an answer of the solver has a residual or a last step within the tolerance, takes at most the allowed number of iterations and lies within reach of the seed; the solver gives up only when the residual of the seed is too large; for an affine residual one step leads to its zero.", "quantifier": "all matrices, right-hand sides, residual functions, configurations and seeds", "why_tests_cant": "Newton's method with a line search is a loop over an arbitrary residual; a test sees one trajectory.", "anchors": ["src/ephemeris/lagrange/solver.rs"]}
{"id": "C146", "title": "The Sun-Earth rotating frame and the seeds of L1 to L5", "statement": "From the positions of Sun and Earth the frame is an orthonormal right-handed triad with x from the Sun to the Earth, z along the orbital angular momentum and the rate of the relative motion; the origin is the barycentre; seeds for L1 to L3 lie on the line of the bodies at the Hill radius, seeds for L4 and L5 form equilateral triangles ahead of and behind the Earth and are exact equilibria of a circular orbit without the Moon; coinciding bodies and dates outside the ephemeris are errors.", "quantifier": "all positions, velocities and positive masses", "why_tests_cant": "A geometric identity over all configurations.", "anchors": ["src/ephemeris/lagrange/solver.rs"]}
{"id": "C147", "title": "Lagrange records are contiguous, interpolate the solver and meet the tolerance", "statement": "A table of records gives at a date the polynomials of the first record covering it, refuses dates outside with the covered range and refuses malformed tables; the records of a fit cover the whole interval without gaps and nothing else, and give at their nodes exactly the positions of the solver; a fit is returned only if the error at every validation date is within the tolerance, and the reported maximum and rms are those of the validation dates.", "quantifier": "all solvers, intervals, block lengths, steps, tolerances and interpolations meeting the contract", "why_tests_cant": "The number of records and of validation dates is unbounded.", "anchors": ["src/ephemeris/lagrange/mod.rs", "src/ephemeris/lagrange/fit.rs"]}
{"id": "C148", "title": "VSOP87 positions are the series of the theory and velocities their derivatives", "statement": "For every table and date the position is Σ T^k Σ A cos(B + C T) with T in millennia of TDB, the velocity is the derivative of the position per day, the combined call returns the same values as the two separate calls, and the groups of four terms lose no term; an error of the four-lane functions enters at most multiplied by the sum of the amplitudes. Each body has tables of its own.", "quantifier": "all tables of any length, all dates, all lane functions", "why_tests_cant": "Identity of functions and a derivative; tests compare a few dates against stored values.", "anchors": ["src/ephemeris/vsop87/vsop87_impl.rs", "src/ephemeris/vsop87/vsop87a.rs"]}
{"id": "C149", "title": "The nutation series are evaluated with the arguments of the conventions", "statement": "For every date, Δψ and Δε of IAU 2000A are the sums of the luni-solar and planetary series at the unreduced polynomials of the fundamental arguments; reduction modulo a turn and the order of summation change nothing; IAU 2000B is its series plus the fixed planetary shares; IAU 2006A scales IAU 2000A by the J2 and P03 factors; the angles never exceed the sum of the amplitudes.", "quantifier": "all dates and all tables with whole multipliers", "why_tests_cant": "Holds for every real date; tests see a few dates near the present where a wrong high coefficient is invisible.", "anchors": ["src/astro/nutation/nut00a.rs", "src/astro/nutation/mod.rs", "src/astro/era.rs"]}
{"id": "C150", "title": "The short lunar theory gives the direction and distance of its series", "statement": "For every date longitude, latitude and distance are the truncated series at the unreduced mean elements; latitude stays below 5.86°, the distance between 356870 and 413131 km, angles in their documented ranges; right ascension and declination are exactly the ecliptic direction turned by the obliquity.", "quantifier": "all dates and obliquities", "why_tests_cant": "Statement over all real dates.", "anchors": ["src/event/lunar/meeus_ch47.rs"]}
{"id": "C151", "title": "A frame kernel is read as one record per named frame, whatever the order of its variables", "statement": "For every text the frame kernel reader succeeds exactly when each identifier i with a variable FRAME_i_NAME has a full description, and then returns one record per identifier in increasing order with exactly the values said; declared frames written in any order among other variables are read back; lookups by identifier and by name find them; the rotation of a frame declared by a matrix relative to J2000 is that matrix; a refusal for a missing variable names one that is missing.", "quantifier": "all texts, all sets of frames, all orders of the variables and of the hash map", "why_tests_cant": "The number of frames, the order of variables and of hash iteration are unbounded.", "anchors": ["src/formats/spice/fk.rs"]}
{"id": "C152", "title": "Instrument and clock kernels are read as one record per identifier", "statement": "For every text the instrument reader and the clock reader succeed exactly when every identifier named by a variable is fully and well described, and then return one record per identifier in increasing order, with the optional parts exactly when given, and clock entries sorted by time without reordering ties.", "quantifier": "all texts", "why_tests_cant": "Unbounded number of instruments, clocks and entries; order of hash iteration.", "anchors": ["src/formats/spice/ik.rs", "src/formats/spice/sclk.rs"]}
{"id": "C153", "title": "Loading a kernel file adds exactly what the file holds", "statement": "For every file and every context: an accepted text kernel adds each kind of kernel exactly if its variables are present; no load, failed or not, removes a kernel; after any sequence of loads the known frames are the built-in ones followed by those of the loaded frame kernels; a refused binary kernel changes nothing; a refused text kernel changes nothing.", "quantifier": "all byte strings, all contexts, all sequences of loads", "why_tests_cant": "Sequences of loads and the contents of files are unbounded.", "anchors": ["src/spice/context.rs", "src/spice/kernel_set.rs", "src/spice/frame_registry.rs"]}
{"id": "C154", "title": "Changing centres and frames is path independent", "statement": "A position recentred and turned by any sequence of to_center, to_frame and to calls keeps standing for the same point of space: two sequences that start from the same position and end with the same centre and frame give the same coordinates, and two positions taken through the same sequence keep their distance. The shift between two centres is the difference of their barycentric places, whichever way the implementation composes it (directly, by negation, or through the barycentre), and is offered exactly when the centres are equal or one of them is the barycentre, the Sun or the Earth and the frame is reachable from the ecliptic.", "quantifier": "for all centres (barycentre, Sun, Earth, seven planets, Pluto, Moon, five libration points), frames (sky and body-fixed), ephemerides, dates, units and finite sequences of moves; contexts without celestial-pole offsets (with them, see C101)", "why_tests_cant": "Tests check a few pairs at a few dates; the claim ranges over all sequences of moves, all ephemerides and all pairs generated by the macros.", "anchors": ["src/coordinates/transform/providers/mod.rs:112-213", "src/coordinates/transform/providers/centers_standard.rs:27-124", "src/coordinates/transform/providers/centers_planetary.rs:40-183", "src/coordinates/transform/centers/mod.rs:162-183", "src/coordinates/transform/ext.rs:340-400"]}
{"id": "C155", "title": "Body-fixed frames have the orientation of the IAU definition", "statement": "The rotation from a body-fixed frame to ICRS sends the body's pole to right ascension alpha0 and declination delta0 and the node of its equator to right ascension alpha0+90 degrees with the prime meridian W east of it; the angles at any date are those the working group publishes for the body (without periodic terms); it is a proper rotation, its inverse is the rotation back, and all chains of rotations through body-fixed frames agree.", "quantifier": "for all nine bodies, all dates, all chains of frame rotations", "why_tests_cant": "Tests only check that the rotation keeps lengths and can be undone, which the inverse rotation satisfies as well.", "anchors": ["src/coordinates/transform/providers/mod.rs:452-462", "src/coordinates/transform/providers/frames_planetary.rs:19-71", "src/astro/orientation.rs:45-90", "src/bodies/solar_system.rs:144-217"]}
{"id": "C156", "title": "Converting an azimuth between conventions keeps the direction", "statement": "The azimuth conversion returns the one value in [0,360) that, in the new convention, denotes the compass direction the old value denoted in the old convention; conversions compose and undo each other up to whole turns, the flip helpers are the named conversions, and altitude, distance and site are untouched.", "quantifier": "all azimuths, all origins and senses, all sequences of conversions", "why_tests_cant": "There are sixty-four pairs of conventions and a continuum of azimuths; wrong offsets agree on symmetric samples.", "anchors": ["src/coordinates/horizontal.rs:60-420"]}
{"id": "C157", "title": "True-of-date horizontal coordinates are the components along north, east and zenith", "statement": "The conversion of a direction from the true equator of date to the horizon has the direction's components along the observer's north, east and zenith, the conversion back is its exact inverse, angular distances are kept, and positions keep their distance.", "quantifier": "all sites, sidereal times and directions, including the zenith and the poles", "why_tests_cant": "Tests sample stars and check round trips, which mirrored or offset formulas also pass.", "anchors": ["src/coordinates/transform/horizontal.rs:80-310"]}
{"id": "C158", "title": "Mean-of-date positions convert to the same horizon", "statement": "The transform of positions from the mean equator of date to the horizon gives the components along north, east and zenith with azimuths counted from north through east, and its inverse restores every position.", "quantifier": "all sites, sidereal times and positions", "why_tests_cant": "The repository's tests check the round trip only, which a mirrored frame passes.", "anchors": ["src/coordinates/transform/frames/to_horizontal.rs:60-300"]}
{"id": "C159", "title": "Astrometric and apparent directions convert without loss in every frame", "statement": "The apparent direction is where an observer moving with the given velocity sees the light, whatever frame the direction is given in; converting to apparent and back returns the direction.", "quantifier": "all directions, frames and velocities below that of light", "why_tests_cant": "Holds for a continuum of velocities and frames; first-order approximations pass tolerance tests.", "anchors": ["src/coordinates/observation/observational_direction.rs:1-330", "src/coordinates/observation/observer_state.rs:80-150"]}
{"id": "C160", "title": "Orbit products read back as the states they were written from", "statement": "Writing a list of states as an SP3 product and reading the file gives the same epochs and, within the columns' resolution, the same positions; likewise for an OEM product. A refused write leaves an existing file as it was.", "quantifier": "For all lists of states, satellites, epochs and previous file contents.", "why_tests_cant": "Each test writes one or two states to a fresh file; rounding to the columns, file truncation before validation and any number of states are not covered.", "anchors": ["src/pod/product/orbit.rs:72-353"]}
{"id": "C161", "title": "The header of an SP3 product describes its contents", "statement": "The first epoch, number of epochs, interval, time scale and frame stated in the header of a written SP3 product are those of the states in it.", "quantifier": "For all lists of states.", "why_tests_cant": "Tests look for a few substrings of the header and never compare it with the states.", "anchors": ["src/pod/product/orbit.rs:72-140"]}
{"id": "C162", "title": "A residual table has one row per residual with its own values", "statement": "The CSV table of residuals has a header line and one line per residual, whose fields are the epoch, names and values of that residual; the Parquet columns hold the same values in the same rows.", "quantifier": "For all lists of residuals and all names in them.", "why_tests_cant": "Tests write one or two rows with tame names; names containing separators or line breaks are never tried.", "anchors": ["src/pod/product/residuals_csv.rs:60-140", "src/pod/product/residuals_parquet.rs:146-268"]}
{"id": "C163", "title": "A run manifest does not depend on the order in which artefacts were recorded", "statement": "Recording the same inputs and outputs in any order gives the same canonical manifest and the same JSON text, and canonicalising twice changes nothing.", "quantifier": "For all lists of inputs and outputs and all permutations of them.", "why_tests_cant": "A test sorts one list of two entries; permutations and equal keys are not explored.", "anchors": ["src/pod/run/manifest.rs:15-48"]}
{"id": "C164", "title": "A force-model registry finds what was registered last under a name", "statement": "After any sequence of registrations the registered names are listed in order, each once, and a name finds the factory registered last under it; a list of specifications builds exactly when every one does, into their models in the declared order, and otherwise reports the first that fails; each built-in name accepts exactly its own parameters.", "quantifier": "For all sequences of registrations, names, parameters and lists of specifications.", "why_tests_cant": "Tests register one factory and build a handful of lists; re-registration histories and every mismatch of name and parameters are not covered.", "anchors": ["src/pod/force/registry.rs:156-460"]}
{"id": "C165", "title": "A force-model configuration builds exactly the models it asks for", "statement": "Every configuration is accepted by the built-in registry and gives exactly the models whose fields are set, each once, in the order of the fields; a factory registered by the user affects only its own name.", "quantifier": "For all configurations, registries and user factories.", "why_tests_cant": "Tests enable one or two fields; there are 2^11 combinations with arbitrary parameters.", "anchors": ["src/pod/force/config.rs:36-179", "src/pod/force/registry.rs:225-261"]}
{"id": "C166", "title": "A covariance is refused exactly when it is not square, not symmetric or has a negative variance", "statement": "The checks of a covariance accept exactly the square matrices whose mirrored entries agree within the tolerance and whose diagonal is nonnegative, name the first offending entry otherwise, never panic, and refuse values that are not numbers.", "quantifier": "For all dimensions, matrices and tolerances.", "why_tests_cant": "Tests use 2x2 and 3x3 matrices of ordinary numbers; every dimension, the first offending entry and NaN are not covered.", "anchors": ["src/pod/problem/covariance.rs:60-108"]}
{"id": "C167", "title": "The index of a parameter is its first place in the ordering", "statement": "Looking up a parameter in a parameter ordering gives the first position at which it stands, and nothing when it is not in it.", "quantifier": "For all orderings and parameters.", "why_tests_cant": "Tests look up two parameters of one ordering.", "anchors": ["src/pod/problem/parameter.rs:83-96"]}
{"id": "C168", "title": "The transition-matrix check measures the worst relative misprediction", "statement": "The integration steps of the check add up to the interval and none is longer than asked; the error returned is within a bound exactly when each component of the actual displacement differs from the predicted one by at most that bound times the largest component, and is zero exactly when the prediction is exact.", "quantifier": "For all flows, matrices, states, displacements, intervals and steps.", "why_tests_cant": "Tests compare the error with one threshold for one orbit; they cannot tell the largest component from another one.", "anchors": ["src/pod/propagation/validation.rs:60-151"]}
{"id": "C169", "title": "Programs using the C handles are safe and do exactly what a table of values would", "statement": "Any sequence of calls of the ephemeris, context, orbit-state and propagator functions in which each handle is used with its own type and not after its release never touches invalid memory, shows the caller the same statuses and numbers as if values had no addresses, never hands out the same address for two live values, and leaves no memory behind once everything has been released.", "quantifier": "all call sequences, all allocators that return free non-null addresses, all arguments including null pointers and NaN", "why_tests_cant": "Memory safety over call sequences and allocator behaviour is a property of all interleavings; tests run a few sequences.", "anchors": ["siderust-ffi/src/dynamics.rs:321-697", "siderust-ffi/src/runtime_ephemeris.rs:56-330"]}
{"id": "C170", "title": "A value behind a handle stays what it was", "statement": "An orbit state returns exactly the numbers it was made of after any other calls that do not release it; a propagation returns a new handle and leaves its input untouched; an ephemeris attached to a context stays attached when its own handle is released; a failed call makes nothing.", "quantifier": "all programs", "why_tests_cant": "Depends on every other call in between.", "anchors": ["siderust-ffi/src/dynamics.rs:356-371", "siderust-ffi/src/dynamics.rs:458-560", "siderust-ffi/src/dynamics.rs:652-697"]}
{"id": "C171", "title": "Callbacks are checked before their answers are used", "statement": "A density callback's answer is used exactly when it is a finite number not below zero, a negative one is reported as below the surface and anything else as a provider failure; gravity constants are accepted exactly when positive and finite; a coefficient is what the callback returned whenever finite, and the error names the coefficient asked for.", "quantifier": "all callbacks, altitudes, degrees and orders", "why_tests_cant": "Callbacks are arbitrary functions.", "anchors": ["siderust-ffi/src/dynamics.rs:229-293", "siderust-ffi/src/dynamics.rs:413-433"]}
{"id": "C172", "title": "Providers attached to a context take part in a propagation", "statement": "Attaching an atmosphere, gravity field or ephemeris to a context makes the propagators offered call it, as the documentation of the callback tables says.", "quantifier": "all programs", "why_tests_cant": "A statement about what no program can observe.", "anchors": ["siderust-ffi/src/dynamics.rs:160-180", "siderust-ffi/src/dynamics.rs:582-624"]}
{"id": "C173", "title": "Positions from C carry the labels of what was computed", "statement": "Each position function labels its result with the centre it asked the series or kernel for, kilometres are used exactly for the Moon, no two functions answer the same question, every body is covered, and the status codes of propagation errors are distinct.", "quantifier": "all functions, dates, series", "why_tests_cant": "The labels are data in twenty-two near-identical functions; a test of one says nothing of the others.", "anchors": ["siderust-ffi/src/ephemeris.rs:17-399", "siderust-ffi/src/runtime_ephemeris.rs:176-330", "siderust-ffi/src/dynamics.rs:106-153"]}
{"id": "C174", "title": "A cone search never misses a star, and reports none outside the cone", "statement": "Catalog::cone_search returns exactly the records, in catalogue order, that pass the filter and whose angular separation (angle between the unit vectors) from the centre is at most the radius.", "quantifier": "for all records, centres, radii and filters", "why_tests_cant": "The reported set over-approximates the cone by an amount depending on declination difference; tests with nearby stars cannot see it.", "anchors": ["src/catalogs/catalog.rs"]}
{"id": "C175", "title": "Filters and chunked searches agree with the plain search", "statement": "A filter keeps exactly the records with magnitude at most the limit (records without magnitude dropped) and the quality wanted; the chunked search yields the same records in the same order for every chunk size.", "quantifier": "for all catalogues, filters and chunk sizes", "why_tests_cant": "Chunk boundaries and absent fields combine in unboundedly many ways.", "anchors": ["src/catalogs/catalog.rs"]}
{"id": "C176", "title": "Proper motion moves a record linearly and keeps coordinates in range", "statement": "CatalogRecord::propagate_to gives the direction obtained by moving declination by pm_dec·Δt and right ascension by pm_ra*·Δt/cos δ, with RA in [0, 2π) and |dec| ≤ π/2 even across a pole; at its own epoch, or without proper motion, a record does not move.", "quantifier": "for all records and epochs (total motion at most half a turn for the range claim), with the cosine of the declination above 1e-12 (nearer the poles the code refuses)", "why_tests_cant": "Pole crossings and wraps occur on a thin set of inputs.", "anchors": ["src/catalogs/record.rs"]}
{"id": "C177", "title": "Catalogue tables are read exactly, in any column order", "statement": "parse_csv_chunk succeeds exactly when every content line after the header says a record (required columns present and numeric, optional numeric or blank), and gives those records in order; otherwise the first bad row is blamed with its line number, column and text. Column order, other columns, comments and blank lines do not matter.", "quantifier": "for all input texts", "why_tests_cant": "Malformed tables form an unbounded input space.", "anchors": ["src/catalogs/ingest.rs"]}
{"id": "C178", "title": "The standard atmosphere is in hydrostatic equilibrium", "statement": "pressure_at_altitude and temperature_at_altitude describe the ICAO standard atmosphere: 288.15 K and 101325 Pa at sea level, −6.5 K/km up to 11 km, isothermal above, dp/dh = −ρ g with ρ = pM/(RT) at every altitude including the tropopause, and no other pressure profile does.", "quantifier": "for all altitudes", "why_tests_cant": "A differential equation at every altitude cannot be sampled; both branches meet at one point.", "anchors": ["src/bodies/aircraft/isa.rs"]}
{"id": "C179", "title": "Pressure altitude inverts pressure, and geometric inverts geopotential altitude", "statement": "pressure_altitude_m(pressure_at_altitude(h)) = h for every h, pressure_at_altitude(pressure_altitude_m(p)) = p for every p > 0; pressure strictly falls with altitude; geopotential_altitude_m and geometric_altitude_m are inverse and follow from inverse-square gravity. Pressures are asked for by the altitude documented.", "quantifier": "for all altitudes above −6356766 m and all positive pressures", "why_tests_cant": "Round trips hold at infinitely many points across two branches.", "anchors": ["src/bodies/aircraft/isa.rs"]}
{"id": "C180", "title": "Dead reckoning moves an aircraft with constant velocity", "statement": "AircraftTrack::track displaces the aircraft by ground speed · time along its track angle (metres on a sphere of 6371 km) and by vertical rate · time in height, keeps speeds and course, leaves it unchanged at its epoch, and yields a valid latitude.", "quantifier": "for all states and epochs (cos latitude ≥ 1e-9)", "why_tests_cant": "The statement ranges over real positions, courses and times.", "anchors": ["src/bodies/aircraft/inner.rs"]}
{"id": "C181", "title": "Moonlight follows its stated laws", "statement": "The lunar albedo is linear in wavelength between 300 and 1100 nm and constant outside; the phase attenuation is the Krisciunas–Schaefer law normalised to one at full Moon, even and strictly falling; the radiance is NaN exactly when an input is not finite or the distance is not positive.", "quantifier": "for all wavelengths, phase angles, distances and irradiances, finite or not", "why_tests_cant": "Laws over the reals and over all non-finite combinations.", "anchors": ["src/event/lunar/photometry.rs"]}
{"id": "C182", "title": "Body names resolve to NAIF numbers, whatever their case", "statement": "naif_id_for_name knows a name exactly when, apart from case and surrounding blanks, it is in the numbering (system k: barycentre k, planet 100k+99; Sun, Moon, SSB, EMB), and MajorPlanet uses the same numbers.", "quantifier": "for all strings", "why_tests_cant": "All strings must be shown refused or accepted.", "anchors": ["src/formats/spice/naif.rs", "src/ephemeris/mod.rs"]}
{"id": "C183", "title": "Builders keep the last value given and report what is missing", "statement": "After any sequence of setter calls the planet, comet and asteroid builders give the object with the last value of each field and documented defaults, and fail (naming a field never set) or panic exactly when a required field was never set; build_unchecked gives the same planet as build.", "quantifier": "for all sequences of setter calls", "why_tests_cant": "Sequences of calls are unbounded.", "anchors": ["src/bodies/planets.rs", "src/bodies/comet.rs", "src/bodies/asteroid.rs"]}
{"id": "C184", "title": "The Kepler solver of the TLE propagator always answers, and answers right", "statement": "For every mean anomaly within a turn and every eccentricity from 0 to 0.9999 the Newton iteration of the TLE propagator stops within its 32 steps, Kepler's equation has exactly one solution, and the answer satisfies the equation to within 1e-26 (exact arithmetic). Whenever it answers, for any eccentricity below one, the answer is right.", "quantifier": "all mean anomalies in [0, 2pi), all eccentricities in [0, 0.9999]; soundness for all eccentricities in [0,1)", "why_tests_cant": "Convergence of Newton's method from the two starting points within a fixed number of steps is a statement about a continuum of inputs; a bad region near e = 0.99 and small M can be arbitrarily thin.", "anchors": ["src/astro/sgp4/propagator.rs:402-423"]}
{"id": "C185", "title": "Exactly the physically meaningful two-line elements make a propagator", "statement": "A propagator is made from a TLE exactly when its epoch year is 1950 or later, its eccentricity is a number in [0,1) and its mean motion a positive number; it then holds the printed elements, with angles in radians, and the constants of the chosen gravity model.", "quantifier": "all element sets, all gravity models", "why_tests_cant": "The acceptance region is a set of reals with strict and non-strict borders.", "anchors": ["src/astro/sgp4/elements.rs:35-69", "src/astro/sgp4/propagator.rs:153-164", "src/astro/sgp4/propagator.rs:300-318"]}
{"id": "C186", "title": "Propagated states are on the drifting Keplerian orbit", "statement": "Every state returned lies on the Keplerian ellipse whose size follows Kepler's third law from the mean motion of that moment, whose node and perigee have drifted with the secular J2 rates, and whose eccentricity and inclination are those of the elements: energy, angular momentum vector and eccentricity vector are exactly those of that ellipse; and the satellite is at the eccentric anomaly of the propagated mean anomaly.", "quantifier": "all elements with eccentricity in [0,1), all times for which a state is returned", "why_tests_cant": "An identity between vectors for every combination of seven real inputs.", "anchors": ["src/astro/sgp4/propagator.rs:320-388", "src/astro/sgp4/propagator.rs:398-400", "src/astro/sgp4/propagator.rs:425-451"]}
{"id": "C187", "title": "TLE propagation fails only when the mean motion is used up, and starts at the epoch's elements", "statement": "With eccentricity up to 0.9999 propagation fails exactly when the extrapolated mean motion is not positive; at the epoch the elements used are the printed ones; asking by date and by minutes since the epoch gives the same state.", "quantifier": "all elements, all times", "why_tests_cant": "Failure at an isolated time would escape any sample.", "anchors": ["src/astro/sgp4/propagator.rs:233-243", "src/astro/sgp4/propagator.rs:269-277", "src/astro/sgp4/propagator.rs:320-388"]}
{"id": "C188", "title": "Drag terms of the elements act as the format says", "statement": "The mean motion at a later time is the one the TLE prints: the format prints half the first and a sixth of the second derivative. Drag lets a satellite sink: after the epoch the orbit is smaller than at the epoch.", "quantifier": "all elements, all times", "why_tests_cant": "Small terms: a reference comparison over hours does not show them.", "anchors": ["src/astro/sgp4/elements.rs:35-69", "src/astro/sgp4/propagator.rs:344-358", "src/astro/sgp4/propagator.rs:390-396"]}
{"id": "C189", "title": "Hour angle of a star's threshold is exactly right", "statement": "For a star and a site, the analytical verdict on an altitude threshold is exact: 'always above' means that at no hour angle is the altitude below the threshold, 'never above' that at no hour angle is it above, and otherwise the returned hour angle h0 lies in (0, π) and the star is above exactly for hour angles strictly between -h0 and h0 and at the threshold exactly at ±h0. At a pole the verdict is that of the fixed altitude. The sinusoid built from the catalogue place gives the altitude of the full evaluation at its epoch.", "quantifier": "all declinations, latitudes and thresholds in [-90°, 90°] with cos(dec)·cos(lat) zero or at least 1e-15; all precession-nutation matrices that keep lengths", "why_tests_cant": "unit tests look at a few stars; that the verdict is right at every hour angle and that the three cases split the plane without a gap is a statement about all real arguments", "anchors": ["src/event/stellar/star_equations.rs:110-177"]}
{"id": "C190", "title": "Predicted crossings are complete", "statement": "For a star turning uniformly the predicted crossings of a window are exactly the instants at which the hour angle is -h0 (rising) or h0 (setting), each listed once, in order of time; an occurrence up to 1e-12 day after the end counts as the end. The prediction always ends.", "quantifier": "all windows, hour angles, sidereal days longer than 1e-12 day", "why_tests_cant": "tests count the crossings of a few days; completeness over windows of any length and any phase is an unbounded statement", "anchors": ["src/event/stellar/star_equations.rs:200-238"]}
{"id": "C191", "title": "Analytical star periods are exact", "statement": "The analytical search for the periods of a star above a threshold reports exactly the instants at which the star is above it, up to the tolerance of the root refinement: if the verdict is confirmed by both ends of the window the whole window or nothing, if contradicted the answer of the plain scan, otherwise periods between the refined crossings.", "quantifier": "all windows, stars and thresholds; altitude functions whose crossings are predicted within a quarter of an hour", "why_tests_cant": "tests compare with the scan for a few bright stars; whether a visit can be lost depends on the width of the refinement bracket against the length of the visit for all stars", "anchors": ["src/event/stellar/altitude_periods.rs:160-286"]}
{"id": "C192", "title": "Undated frame conversions agree with the dated ones", "statement": "Converting a position, direction or velocity between ICRS, the mean equator of J2000 and the mean ecliptic of J2000 with `to_frame` gives the same vector as the rotation the dated interface returns for that pair; going through a third frame changes nothing; spherical coordinates are converted consistently and distances are kept.", "quantifier": "all vectors, all three kinds, all pairs and triples of the frames, all dates and model contexts", "why_tests_cant": "Two interfaces implement the same rotations separately for three kinds of quantity; tests compare a few vectors.", "anchors": ["src/coordinates/transform/frames/bias.rs:51-106", "src/coordinates/transform/frames/direction.rs:36-100", "src/coordinates/transform/frames/velocity.rs:34-104", "src/coordinates/transform/frames/to_ecliptic.rs:40-61", "src/coordinates/transform/frames/to_equatorial.rs:40-59", "src/coordinates/transform/frames/to_icrs.rs:40-59", "src/coordinates/transform/frames/mod.rs:56-93"]}
{"id": "C193", "title": "Ecliptic coordinates of date are those of the classical formulas", "statement": "`to_ecliptic_of_date` gives, for every direction including the poles, the ecliptic coordinates that belong to its right ascension and declination at the mean obliquity of date; from ICRS and GCRS the result is that of precessing first; the conversions back undo it.", "quantifier": "all dates, all unit vectors", "why_tests_cant": "The conversions pass through angles with clamping and wrapping; loss at the poles or in one of five copies would show only there.", "anchors": ["src/coordinates/transform/ecliptic_of_date.rs:84-261", "src/astro/precession.rs:220-314"]}
{"id": "C194", "title": "Ecliptic directions labelled true of date are true of date", "statement": "The direction returned by `to_ecliptic_of_date` has the coordinates of the frame in its type, the true ecliptic and equinox of date.", "quantifier": "all dates, nutation angles, directions", "why_tests_cant": "The type is a marker; no test compares it with the frame of that name.", "anchors": ["src/coordinates/transform/ecliptic_of_date.rs:64-169", "src/coordinates/frames.rs:23"]}
{"id": "C195", "title": "The Sun's apparent place is the direction from Earth to Sun in the frame of date", "statement": "`get_apparent_geocentric_equ` gives the direction and distance from Earth to Sun turned by obliquity, bias, precession and nutation; `get_apparent_topocentric_equ` subtracts the observer's position first and agrees with the geocentric place for an observer at the geocentre; `ecliptic_longitude_geocentric` is the Earth's heliocentric longitude plus half a turn, in [0, 2π).", "quantifier": "all dates, nutation angles, positions of Sun, Earth and observer", "why_tests_cant": "Two separate routes (one matrix, or precession then nutation) must give one place for all dates; tests look at a few dates with loose tolerances.", "anchors": ["src/event/solar/sun_equations.rs:80-194", "src/event/horizontal.rs:93-143"]}
{"id": "C196", "title": "The Sun's place agrees with the frame network", "statement": "The Sun's place in the true equator of date is what the crate's own rotation from the mean equator of J2000 to the true equator of date makes of its J2000 vector.", "quantifier": "all dates, model contexts, vectors", "why_tests_cant": "A frame bias of hundredths of an arcsecond is below every test tolerance.", "anchors": ["src/event/solar/sun_equations.rs:91-96", "src/event/horizontal.rs:107-131", "src/coordinates/transform/providers/frames_inertial.rs"]}
{"id": "C197", "title": "Culminations are the transits of the body", "statement": "`culminations` of a star from a window reports a maximum at every upper meridian transit and a minimum at every lower one that lies a scan step inside the window, and reports nothing else, each to the time tolerance asked for and with the altitude of that instant; for any body the events are in time order, inside the window, carry the altitude of their instant and a turning point of the altitude, and no isolated peak or trough is missed; a star and its direction give the same list.", "quantifier": "every observer and star off the poles, every precession-nutation rotation, every even turning rate up to 180 degrees in 40 minutes, every window and tolerance; for the general part every altitude function", "why_tests_cant": "Tests compare a few culminations with tables; completeness for every window, and that nothing but transits is ever reported, are statements about all windows and phases of the scan grid.", "anchors": ["src/event/altitude/events.rs:181-240", "src/event/altitude/provider.rs:32-320", "src/event/search/extrema.rs:110-306"]}
{"id": "C198", "title": "Azimuth extrema are those of the continuous azimuth", "statement": "`azimuth_extrema` unwraps the azimuth with a closure that remembers the last call, while the search calls it forwards and backwards in time; the events reported are exactly those the search would report for the azimuth followed continuously, with the azimuth of the instant in [0°, 360°), provided the azimuth moves less than half a turn in three scan steps; passing north never creates or hides an extremum.", "quantifier": "every azimuth function, window, step and tolerance", "why_tests_cant": "The unwrapping depends on the order of calls of the golden-section search; tests see one sequence of calls each.", "anchors": ["src/event/azimuth/events.rs:90-140", "src/event/azimuth/events.rs:237-267", "src/event/search/extrema.rs:110-306"]}
{"id": "C199", "title": "Correction policies and search options reach the engines", "statement": "A star and its direction give the same azimuths, altitudes and azimuth periods for every correction policy; a call without a policy is one with the apparent policy; the policy and the tolerance asked for take effect for every body.", "quantifier": "every body, observer, instant, policy and query", "why_tests_cant": "Whether some combination of trait default and override drops an argument is a question about every implementor and every argument.", "anchors": ["src/event/azimuth/provider.rs:84-92", "src/event/azimuth/provider.rs:238-380", "src/event/altitude/provider.rs:32-320", "src/event/azimuth/events.rs:59-63", "src/event/azimuth/events.rs:182-212"]}
{"id": "C200", "title": "Numbers cross the C boundary in the documented unit", "statement": "Whatever a C function writes denotes the quantity its documentation names, in the unit its documentation names: the altitude function writes the altitude in radians; the azimuth function, documented to write degrees, writes the number of degrees of the azimuth; each culmination and azimuth-extremum record carries the instant, the angle in degrees and the kind of the event found by the library.", "quantifier": "all subjects, instants, observers, angles, event lists, memories", "why_tests_cant": "An FFI unit test checks that the call returns Ok and a finite number; that the number is in the unit the header promises is a statement about every angle and needs both sides of the boundary.", "anchors": ["siderust-ffi/src/subject.rs:36-58", "siderust-ffi/src/subject.rs:236-259", "siderust-ffi/src/types.rs:782-806", "siderust-ffi/src/types.rs:1080-1092", "siderust-ffi/include/siderust_ffi.h:1894-1896"]}
{"id": "C201", "title": "The Moon phase functions of the C interface agree with the library", "statement": "Through the C interface the phase geometry written is that of the library, field by field; the label computed from a record equals the label the library gives for the same geometry, under distinct codes; the call returns for every record; search options that make no sense are refused as they are in the other searches.", "quantifier": "all geometries, records, elongations, windows, options, memories", "why_tests_cant": "The label function takes a record from C, so any number can be in it, and the options are raw floats; tests use records produced by the library and default options.", "anchors": ["siderust-ffi/src/phase.rs:25-262", "src/event/lunar/phase.rs:130-190"]}
{"id": "C202", "title": "Targets made through the C interface point where their coordinates point", "statement": "From the data a C caller gives, a target is made exactly when the epoch is finite, the coordinates name a direction (a finite place at positive distance, or a finite vector that is not too short) and the frame is one of the six convertible ones. It points in the named direction, expressed in ICRS by the rotation of the frame network, and keeps the epoch; the same point given by angles and distance or by components makes targets pointing the same way. A converted target keeps its place, distance and epoch.", "quantifier": "all coordinates, frames, epochs, Earth-orientation models with the standard obliquity", "why_tests_cant": "Directions near the poles, negative components, wrapped azimuths and six frames at any epoch form a continuum; tests try one or two.", "anchors": ["siderust-ffi/src/target.rs:57-178", "src/targets/transform.rs:85-106"]}
{"id": "C203", "title": "Proper motion keeps its meaning when a target changes frame", "statement": "If a target with proper motion is expressed in another frame, it sets out from the converted place along the converted velocity: converting and moving agree to first order.", "quantifier": "all targets away from the poles, both conventions, all rotations", "why_tests_cant": "The conversion compiles and the position is right; that the copied rates refer to the axes of the old frame shows only when the motion is applied afterwards.", "anchors": ["src/targets/transform.rs:56-106", "siderust-ffi/src/target.rs:57-72", "siderust-ffi/src/target.rs:158-178"]}
{"id": "C204", "title": "A passband is a throughput at every wavelength", "statement": "For each of the accessors u, b, v, r, i (and johnson_b, johnson_v): the call never panics, and the spectrum it returns, evaluated at any wavelength whatever, lies between 0 and 1, follows the straight line between neighbouring published samples, has no jump, is zero outside the published range, rises to a throughput of exactly one at the published peak and falls after it.", "quantifier": "every band, every real wavelength", "why_tests_cant": "Tests look at the samples of the tables; what the curve does between and outside them, at every wavelength, is a statement about a continuum.", "anchors": ["src/photometry/passbands/bessell1990.rs:163-240", "src/photometry/passbands/mod.rs:62-78", "src/photometry/passbands/bessell1990/"]}
{"id": "C205", "title": "A passband has one opening, of the documented width and mean wavelength", "statement": "For each band the wavelengths at which at least half the light passes form one interval, whose length agrees with the documented full width at half maximum (66, 98, 88, 158, 154 nm) within 3.3 nm; and the mean wavelength of the curve as an integral agrees with the documented flat-spectrum mean within 0.9 nm.", "quantifier": "every band, every real wavelength", "why_tests_cant": "The tests skip the widths of three bands and use a trapezoidal sum over samples in place of the integral; that no second opening exists anywhere is not something samples can show.", "anchors": ["src/photometry/passbands/bessell1990.rs:175-240", "src/photometry/passbands/mod.rs:50-78"]}
{"id": "C206", "title": "Ozone transmittance is a transmittance at every wavelength", "statement": "transmittance_at returns, for any wavelength, a number in [0, 1] (in fact at least 0.0869), on the straight line between neighbouring samples of the bundled table, without jumps, and equal to the first or last sample beyond the ends of the table.", "quantifier": "every real wavelength, all 3614 samples", "why_tests_cant": "The promise 'never errors and always in [0, 1]' ranges over all wavelengths; tests sample a few.", "anchors": ["src/atmosphere/ozone.rs:64-88", "src/atmosphere/o3trans.dat"]}
{"id": "C207", "title": "The Moon's 36 series are the published ones", "statement": "Each of the 36 series of the lunar theory, as summed four terms at a time with the leftover terms one by one, differs from the published series (amplitude times power of time times the sine of its argument; cosine for the main distance series) by at most the error of the four-lane sine times the sum of the amplitudes; longitude, latitude and distance collect every third series.", "quantifier": "all tables, all constants, every date, every accuracy of the four-lane sine", "why_tests_cant": "tests compare a handful of dates against stored numbers and cannot tell a mis-scaled small series or a dropped leftover term from noise", "anchors": ["src/ephemeris/elp2000/elp_series.rs:141-500", "src/ephemeris/elp2000/elp_series.rs:704-755"]}
{"id": "C208", "title": "The Moon's place is the polar point of its series, turned rigidly to the ecliptic of J2000", "statement": "get_geo_position answers the point at the published longitude, latitude and distance, turned by the inclination i about the node Omega where p = sin(i/2) sin(Omega), q = sin(i/2) cos(Omega); angles and distances are kept; the answer exists exactly while p^2+q^2 <= 1; at J2000 there is no turn.", "quantifier": "all tables, constants and dates", "why_tests_cant": "tests check magnitudes within tolerance at few dates", "anchors": ["src/ephemeris/elp2000/elp_series.rs:756-796"]}
{"id": "C209", "title": "Pluto's place is that of the published series", "statement": "Pluto::get_heliocentric answers the point at longitude 238.958116+144.96t+1e-6*sum, latitude -3.908239+1e-6*sum (degrees) and radius 40.7241346+1e-7*sum; its distance from the Sun is that radius at every date, within the sum of the amplitudes of the mean.", "quantifier": "all tables, all dates", "why_tests_cant": "one date is tested", "anchors": ["src/ephemeris/pluto.rs:46-92"]}
{"id": "C210", "title": "An XML ephemeris message is read as what its document says", "statement": "Reading an XML orbit ephemeris document gives the version attribute of its root, the creation date and originator of its header, and for each segment the five metadata fields and the state vectors in order, whatever namespace prefix, comments, references and blank space stand around them; a document without segments, with a missing metadata field, an unreadable epoch or number or an incomplete state vector is refused.", "quantifier": "for all documents (any prefix, any number of segments, vectors and fields, any text)", "why_tests_cant": "Tests read two or three fixed documents; the claim covers all documents, orders of fields and places of comments and prefixes.", "anchors": ["src/formats/ccsds/oem.rs:536-747"]}
{"id": "C211", "title": "A written XML ephemeris message reads back", "statement": "Writing a nonempty list of states with metadata as XML and reading the text back gives one segment with the same metadata and the same number of states in order, each coordinate within half a unit of its last printed place and each epoch within half a microsecond.", "quantifier": "for all metadata and all nonempty lists of states with epochs from year 0 on", "why_tests_cant": "The doc test reads back one state with plain names; the claim covers every name and number.", "anchors": ["src/formats/ccsds/oem.rs:450-535", "src/formats/ccsds/oem.rs:536-747"]}
{"id": "C212", "title": "Frame changes through the C interface are path independent", "statement": "A direction or position turned to another frame by the C functions keeps standing for the same thing: the answer has the components along the axes of the target frame of what was given along the axes of the source, lengths and angles are kept, any journey through supported frames ends where one turn does, centre and unit are kept, and angles come back within their ranges. Null output, unsupported frames and unreadable dates are refused, in that order, and nothing else is.", "quantifier": "for all frames, dates, vectors, angles and finite journeys, with any Earth orientation data", "why_tests_cant": "Tests turn a few vectors between a few pairs and back.", "anchors": ["siderust-ffi/src/coordinates.rs:77-271", "siderust-ffi/src/coordinates.rs:454-858"]}
{"id": "C213", "title": "A transform context chooses the nutation model of C calls", "statement": "A call with the default context answers as the call without one; a context reports the model it was made with; the model matters only for the true equator of date and the date only for the equators of date; a direction turned to the horizon with a context is the one an observer sees with that model.", "quantifier": "for all models, dates, sites and directions", "why_tests_cant": "Tests compare default and explicit contexts at one date for one direction.", "anchors": ["siderust-ffi/src/context.rs:14-84", "siderust-ffi/src/coordinates.rs:40-75", "siderust-ffi/src/coordinates.rs:275-314", "siderust-ffi/src/coordinates.rs:406-452", "siderust-ffi/src/coordinates.rs:615-659", "siderust-ffi/src/coordinates.rs:862-905", "src/coordinates/transform/horizontal.rs:90-133"]}
{"id": "C214", "title": "Orbits propagated from C are refused or right, the same whichever function is used", "statement": "siderust_prepared_orbit_create, siderust_mean_motion_position, siderust_conic_position and siderust_kepler_position_ex accept exactly the elements that describe such an orbit (finite numbers, positive size, eccentricity in range, positive mean motion), answer InvalidArgument otherwise, write a position exactly when they answer Ok, and every position written lies on the Newtonian orbit of the elements around the centre named; the prepared and the unprepared function give the same position.", "quantifier": "all element sets including NaN and infinities, all dates, all pointers null or not; for every solver of Kepler's equation meeting its contract", "why_tests_cant": "Invalid elements, dates and centres combine freely and the agreement of two code paths is over all orbits and dates; tests sample a few valid orbits.", "anchors": ["siderust-ffi/src/coordinates.rs:1049-1234", "siderust-ffi/src/types.rs:468-660"]}
{"id": "C215", "title": "The fast Sun of the day search is the Sun at its published place", "statement": "The fast sine of the altitude used by the daily solar search is, for every site and date, the cosine of the angle between the zenith and the point of the ecliptic at the published longitude series and obliquity, for the linear sidereal time of the model; it never leaves [-1, 1]. The state of a day always exists, its transit lies in the day, its declination is that of the same Sun, and turning once a day from the transit puts the Sun at midday exactly where the library's own sidereal time puts it. The documented accuracy of about one arcminute does not hold: fed with TT instead of UT1, from 2010 to 2049 the model is always more than five arcminutes off somewhere on the equator.", "quantifier": "All sites, dates, days and ΔT functions; for the accuracy finding all instants 2010-2049 and ΔT of 60 to 80 s.", "why_tests_cant": "Trigonometric identities over all dates and places; a sample cannot show that two separately written series agree or that an error is present at every instant.", "anchors": ["src/event/solar/daily_events.rs:90-150", "src/event/solar/daily_events.rs:543-587", "src/astro/earth_rotation.rs:178-201"]}
{"id": "C216", "title": "Predicted sunrise and sunset are exact for the Sun of the day", "statement": "For every site, declination and threshold: when the predictor says that the Sun stays below (above) the threshold, the Sun of the daily state turning once per day is below (above) it at every instant; when it predicts crossings, the two candidates lie within half a day before and after the transit, the altitude there is exactly the threshold, its rate of change exactly the announced slope (upwards first, then downwards), and within half a day of the transit the Sun is above the threshold exactly between the two.", "quantifier": "All sites with |latitude| ≤ 90°, day states with nonnegative cosine of declination, thresholds and instants.", "why_tests_cant": "A statement about derivatives and all instants of a day; tests compare a few dates with tolerance.", "anchors": ["src/event/solar/daily_events.rs:360-400", "src/event/solar/daily_events.rs:482-504"]}
{"id": "C217", "title": "The window an out-of-coverage error names", "statement": "When a state is refused as out of coverage, the start and end named in the error are the latest start and the earliest end of the segments that link the two bodies directly; the requested epoch never lies in the named window; with one segment the window is that segment's. With several segments for one pair it is their intersection, possibly with start after end, and not what is covered; for bodies linked through a third one it is NaN.", "quantifier": "All kernels (lists of segments over any linearly ordered epochs), pairs of bodies and epochs.", "why_tests_cant": "Ranges over all kernels; tests use files with one segment per pair.", "anchors": ["src/formats/spice/kernel.rs:275-291", "src/formats/spice/kernel.rs:333-351"]}
{"id": "C218", "title": "The planetary segments picked from a kernel", "statement": "parse_bsp answers exactly with the coefficient tables that the first summaries for Sun (10 from 0), Earth-Moon barycentre (3 from 0), Moon (301 from 3) and Earth (399 from 3) point at, when those are of type 2 or 3 and laid out as the format prescribes; the first three are required, and the Earth is left out exactly when no summary names it. It does not panic. The reference frame of the summaries is not looked at, and later segments for the same pair are passed over.", "quantifier": "All byte strings shorter than 2^63 and all lists of summaries.", "why_tests_cant": "The answer depends on the whole layout of a file of any size and order of summaries; tests hold an empty file and one with a wrong type.", "anchors": ["src/formats/spice/spk.rs:50-78", "src/formats/spice/spk.rs:275-324"]}
{"id": "C219", "title": "Two-line elements through the C interface", "statement": "For every element set that fits its columns, the two written lines, with any blanks around them, are read by siderust_tle_parse into a handle; siderust_tle_norad_id reports its catalogue number; siderust_sgp4_new makes a propagator of it whose epoch, inclination, node, perigee, anomaly, eccentricity and mean motion are those of the set to the printed precision; every state that siderust_sgp4_propagate_at returns lies on the Keplerian orbit with that eccentricity and inclination and the size belonging to the mean motion of that moment (at the epoch: with that node and perigee); and at the epoch, for eccentricities up to 0.9999, a state is returned. Failing calls write nothing and leave the heap as it was.", "quantifier": "all element sets within the column limits, all blank paddings, all gravity codes, all finite dates", "why_tests_cant": "Tests use the one documented station; the claim chains writer, C reader, preparation and propagation for every set.", "anchors": ["siderust-ffi/src/sgp4.rs:94-307", "src/astro/sgp4/propagator.rs:153-164", "src/formats/tle/parse.rs"]}
{"id": "C220", "title": "Which C arguments make a propagator", "statement": "A set read from any pair of lines makes a propagator exactly when its mean motion is a positive number, its derivative is a number and its angles are numbers, and the gravity code is 0, 1 or 2; the code is reported back; each code selects its own model; the propagator does not depend on the set after it has been made.", "quantifier": "all pairs of lines, all integer codes, all heaps", "why_tests_cant": "The set of accepted texts is infinite; tests try a good pair and one bad checksum.", "anchors": ["siderust-ffi/src/sgp4.rs:183-236", "src/astro/sgp4/elements.rs:35-69", "src/astro/sgp4/propagator.rs:300-318"]}
{"id": "C221", "title": "A batch solution hands its covariance to the filter whole, and batch then filter is one batch", "statement": "`WlsResult::to_state_covariance` answers exactly for six-parameter solutions and keeps every entry of the posterior covariance; a filter started (`OrbitEkf::new`) at the corrected state with that covariance and fed further measurements one by one never fails and ends with the state and covariance that one batch of all the measurements gives, whatever states the two batches are linearised at; `OrbitEkf::from_stddevs` has the squared deviations on the diagonal and nothing else, and is positive definite exactly when no deviation is zero.", "quantifier": "all linear measurements with positive deviations, all batches that determine the state, all linearisation points, all later measurements", "why_tests_cant": "An equality between two different algorithms over all measurement sets; a test compares one set to a tolerance, and block/triangle mistakes cancel on symmetric examples.", "anchors": ["src/pod/estimation/wls.rs:220-246", "src/pod/estimation/sequential.rs:78-103", "src/pod/estimation/sequential.rs:118-231"]}
{"id": "C222", "title": "What the reported error of a state-transition matrix says", "statement": "`max_rel_stm_predict_error` is at most ε exactly when every component of Φ·δ is within ε of the propagated difference, relative to that component's own size (as documented); it is zero for the exact matrix of a linear propagator; a propagation or matrix that is not a number is never reported as agreement; it fails exactly when one of the three propagations fails, with that error; the sub-steps cover the interval exactly and are no longer than asked for.", "quantifier": "all propagators, states, perturbations, intervals, steps and tolerances", "why_tests_cant": "The check is itself the test harness: whether a pass means anything needs its meaning for all matrices, including wrong ones and NaN ones.", "anchors": ["src/pod/propagation/validation.rs:66-147"]}
{"id": "C223", "title": "The sky grid handed to C is the grid, cell by cell", "statement": "For every band, steps and mode, `siderust_sky_grid_cells` with two output pointers hands out an array with as many cells as the grid has, in its order (ring by ring upwards, eastwards in a ring); the uniform cell of ring i and place j is number i·k+j and holds the middle of its ring and azimuth range and cos(alt)·Δalt·Δaz; altitudes lie in the band and in [-90°, 90°]; `siderust_sky_grid_cells_free` with that count releases exactly that array, once; null outputs are refused without effect, and steps or bands that give no grid are refused.", "quantifier": "all finite bands and steps, both modes, all memories; other numbers for the ring count", "why_tests_cant": "The index formula and the memory contract hold over all sizes and all heaps; unusable inputs (infinite bands, zero steps, bands beyond the zenith) are not in the tests.", "anchors": ["siderust-ffi/src/sampling.rs:21-88", "src/coordinates/sampling.rs:163-315"]}
{"id": "C224", "title": "From the bytes of a kernel to the places of Sun, Earth and Moon", "statement": "RuntimeEphemeris loads a kernel exactly if it has a Chebyshev segment in the J2000 frame and all of those are laid out as the format prescribes. A query at a date then answers exactly with the places (for the velocity: the rates) that the file gives: for each body the last segment in file order whose summary and table both contain the epoch, its record for that epoch, and the sum of the Chebyshev series of that record at the normalised time; the Earth from its own segments if the file has any, opposite to the Moon otherwise; the Moon relative to that Earth. No fallible query panics. Two limits: a kernel without any of the bodies is loaded, and then every query without try_ panics; and a kernel whose Earth segments leave out a date refuses the Earth there although barycentre and Moon are given.", "quantifier": "All byte strings shorter than 2^63, all lists of summaries, all dates and output conversions; exact arithmetic, finite coefficients, cheby summing the series.", "why_tests_cant": "The answer depends on bytes, order and overlap of any number of segments; tests hold hand-made one-record segments and one overlap.", "anchors": ["src/ephemeris/runtime_backend.rs:61-276", "src/ephemeris/jpl/eval.rs:430-545", "src/ephemeris/jpl/bodies.rs:85-303"]}
{"id": "C225", "title": "A target handle gives back what it was made from until it is released", "statement": "Through the C interface, a generic target made from a description of a direction at a finite epoch in one of the six served frames gets a handle; another frame gives the wrong-frame status, anything else the wrong-argument status, a missing place for the handle the null-pointer status, and nothing is allocated. Every later read of a handle that has not been released gives the description and epoch that target was made from, whatever other targets were made or released in between; the short forms for ICRS directions are the general form; once all are released nothing remains allocated.", "quantifier": "for all sequences of create, read and release calls of a client that uses only handles it holds, all descriptions with finite angles and proper motions, all allocators that give unused addresses", "why_tests_cant": "The answers depend on the whole history of calls and on where the allocator places boxes, including addresses used again after a release; tests make one handle at a time.", "anchors": ["siderust-ffi/src/target.rs:184-307", "siderust-ffi/src/target.rs:158-178"]}
{"id": "C226", "title": "What a C client reads from an ephemeris file is what the file says, or the reason why it says nothing", "statement": "A client that passes the bytes of a kernel to siderust_runtime_ephemeris_load_bytes gets a handle exactly if the file has a segment of a supported kind (J2000 frame, Chebyshev type 2 or 3) and every such segment has the layout of its type; otherwise nothing is written and the status tells of a data error (or of a caught panic). On such a handle each of the four position queries and the velocity query writes, at a finite date, exactly the place (or velocity) that the last covering segments of the file give, labelled with the centre and unit of that query; if a needed pair of body and centre has no segment at that date nothing is written, and the status is that of the first such pair in the order barycentre, Earth (or Moon), Sun (Moon first for the Moon): OutOfRange if the file has other segments of it, DataError if it has none. Null pointers and dates that are not finite are reported as such and write nothing; free removes that one box.", "quantifier": "for all byte strings shorter than 2^63 whose summaries the reader gets through, all heaps and allocators, all queries, all finite dates, all mass ratios above zero, all Chebyshev evaluators that sum the series", "why_tests_cant": "Tests load one archived kernel and ask at dates it covers; they cannot range over files, nor over which of several needed segments is missing.", "anchors": ["siderust-ffi/src/runtime_ephemeris.rs:25-33", "siderust-ffi/src/runtime_ephemeris.rs:85-105", "siderust-ffi/src/runtime_ephemeris.rs:162-334"]}
{"id": "C227", "title": "A long product name can be read back by its columns, and kinds of product never share a name", "statement": "With fields of the documented widths every name built by igs_lfn, sp3_lfn, clk_filename and rnx_obs_filename has centre, version, campaign, year, day of year, hour, minute, span and sample rate in fixed columns from which exactly the given values are read back; the content tag has the three characters that igs_lfn documents; an orbit, a clock and an observation name are never equal whatever the arguments; sp3_filename is the full-control name with the documented defaults (OPSFIN, one day, from midnight).", "quantifier": "all centres, versions, campaigns, dates, times, spans and sample strings; for the last two parts without any condition on widths", "why_tests_cant": "Tests compare a handful of names with literals; that no two argument lists of different builders collide and that every value is recoverable is a statement about all of them.", "anchors": ["src/pod/product/naming.rs:177-366"]}
{"id": "C228", "title": "Twilight codes through the C interface", "statement": "siderust_twilight_classification_deg and _rad write, for every altitude, the code of the one class of the documented table the altitude belongs to; the code is the one the enumeration gives that name; the same altitude in degrees and in radians has the same code; codes grow as the Sun goes down and change exactly at the thresholds of the night searches; a null pointer is answered with NullPointer and nothing is written, and what is no altitude is refused.", "quantifier": "all altitudes in degrees and radians, NaN and infinities included, and all pointers", "why_tests_cant": "The boundaries are single numbers, and agreement of two units and of two modules is for all altitudes.", "anchors": ["siderust-ffi/src/twilight.rs:14-87", "src/event/solar/classification.rs:131-147"]}
{"id": "C229", "title": "The named sites are the same wherever the library names them", "statement": "The four siderust_observatory_* functions write the documented longitude, latitude and height of their site; the sites are distinct places on the Earth; the atmosphere profile kept for a site has the height and pressure of the site record, and the pressure documented as that of the standard atmosphere is the one the library's standard atmosphere gives; a place made with siderust_geodetic_new holds the numbers given and its Cartesian form is labelled Earth-fixed, geocentric, in metres; places off the Earth are refused.", "quantifier": "all four sites, all wavelengths, all triples of numbers, all conversions of the geometry crate", "why_tests_cant": "The constants sit in three modules that no test compares.", "anchors": ["src/catalogs/observatories.rs:104-192", "siderust-ffi/src/observatories.rs:12-98", "siderust-ffi/src/coordinates.rs:911-938", "src/atmosphere/profile.rs:70-109", "src/bodies/aircraft/isa.rs:118-130"]}
{"id": "C230", "title": "The planet constants are the published elements, and C callers get them as orbits that can be evaluated", "statement": "Every planet constant carries the mass and mean radius of the documentation and the published mean elements at J2000 (semi-major axis, eccentricity, inclination, node), with an argument of perihelion and a mean anomaly that agree, up to full turns, with the published longitude of perihelion and mean longitude. All tabulated orbits (planets, dwarf planets, moons, comets, asteroids) are ellipses; the planets are listed outwards with orbits that do not reach into each other. The C function named after a planet writes exactly that constant, never through a null pointer, and the orbit it writes is accepted by the prepared-orbit constructor, whose handle answers for every date with a position on the Newtonian orbit of the published elements.", "quantifier": "every line of the published table; every tabulated body; every pair of planets; every date", "why_tests_cant": "Unit tests compare a constant with itself or look at one planet; the relation between argument, anomaly and the published longitudes, and the behaviour of the written orbit at every date, are not sampled.", "anchors": ["src/bodies/planets.rs", "src/bodies/solar_system.rs:59-700", "siderust-ffi/src/bodies.rs:251-361", "src/astro/orbit.rs"]}
{"id": "C231", "title": "Moons, Lagrange points, comets and the Sun as a star are where the documentation puts them", "statement": "The tabulated constants agree with the descriptions beside them: a moon's orbit lies outside its planet and its period is that of a revolution around the planet; the Sun-Earth L1 and L2 points are a hundredth of an AU on either side of the Earth; the comets pass perihelion in the years they are known for; the Sun as a star has the documented right ascension and declination.", "quantifier": "every tabulated moon with its planet; every position of the Earth; every date in the period considered", "why_tests_cant": "The constants are only tested for being positive or for equality with themselves; a factor of a thousand, a confusion of hours and degrees, or an anomaly of another epoch passes.", "anchors": ["src/bodies/solar_system.rs", "src/bodies/satellite.rs", "src/bodies/comet.rs", "src/astro/orbit.rs"]}
{"id": "C232", "title": "Stars through the C interface are the documented ones, found by name in any case, over any history of calls", "statement": "siderust_star_catalog finds a star exactly when the text spells one of the ten documented names letter by letter up to case, and the star it gives has the documented name, distance, mass, radius, luminosity and J2000 coordinates (the coordinate's distance being the star's distance); any other text is UnknownStar, text that is not UTF-8 InvalidArgument, a null pointer NullPointer, and nothing is allocated. A custom star is made of exactly the values given. Whatever other stars are made or released in between, a held handle answers with the values of its own star: the name is copied with its terminator only into a buffer that is long enough, the four numbers and the coordinate a search runs on are those of the star; null handles give NaN or NullPointer. Over any number of calls on held handles there is no undefined behaviour, and the heap holds exactly the stars not released.", "quantifier": "every text; every sequence of calls of a client that uses only handles it holds or null; every allocator", "why_tests_cant": "Tests look at a few names and one handle at a time; they cannot cover all texts or all interleavings of creation, release and reading.", "anchors": ["siderust-ffi/src/bodies.rs:36-245", "src/bodies/catalog.rs", "siderust-ffi/src/ffi_utils.rs:171-177"]}
{"id": "C233", "title": "The seeding policies of the event search report brackets that contain a crossing, and say which crossings they may miss", "statement": "For every function, threshold and time window: with a positive step `fixed_step_brackets` ends and reports, in order and without overlap, exactly those windows of the step at whose ends the function is on different sides of the threshold; a continuous function takes the value of the threshold in each. With a positive least step `adaptive_step_brackets` ends and reports exactly one bracket within each of those windows, at most twice the least step wide. `extrema_based_brackets` reports in order, without neighbours that agree to 1e-8 days, the samples nearest to each maximum above the threshold (a tenth of the remaining time apart) between which the function crosses it, and no others.", "quantifier": "all functions, thresholds, windows, steps and lists of extrema", "why_tests_cant": "Functions are arbitrary and the number of subdivisions is not bounded", "anchors": ["src/event/search/bracketing.rs:51-87", "src/event/search/bracketing.rs:97-172", "src/event/search/bracketing.rs:183-337"]}
