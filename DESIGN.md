# Formal model of siderust: design

Source under study: the Rust crate in `/repo` (siderust and `siderust-ffi`), read as text only.
The model is a set of Lean 4 modules in `lean/Verif/`. Every definition cites the Rust file and
lines that it models.

## Layout

Each area of the crate has a directory `lean/Verif/<Area>/` with up to four files:

* `Model.lean`: transcription of the Rust functions (cited line by line).
* `Spec.lean`: an independent statement of what the function is for (FIPS text, textbook formula, set of instants, ...). It uses no helper of the model.
* `Lemmas.lean`: helper lemmas. No property is stated here.
* `Props.lean`: the property theorems, each followed by an `example` that meets its hypotheses.

`MANIFEST.json` maps the properties of `properties.jsonl` to theorem names.

## Trusted base

* The Lean 4.33.0 kernel and the axioms `propext`, `Classical.choice`, `Quot.sound`. Nothing else: no own axioms, no `sorry`, no `native_decide`, no `bv_decide`. `AXIOMS.md` lists the axioms of every theorem named in the manifest.
* The faithfulness of the transcription (the code is not run).
* The modelling conventions below.

## Modelling conventions

* `u8`, `u32`, `u64` become `BitVec`, `UInt*` or `Nat` with explicit reduction where wrap-around matters. Where Rust would panic in debug and wrap in release the model returns an explicit `panic` outcome, or wraps, as stated at the definition.
* A panic (slice out of range, index out of range, explicit `panic!`) is an explicit outcome, never a default value.
* Loops become folds or structural recursion. A loop whose termination is in question is modelled by a step function or by fuel, and the statement speaks about all amounts of fuel.
* `f64` is handled per module:
  * **order only**: search code uses only comparison, so the model is over an arbitrary linear order.
  * **exact**: numerical formulas are modelled over a (linear ordered) field, the rationals or the reals. Rounding error is not modelled; such theorems are about the algorithm, not its floating point error. This is said in each file.
  * **bits**: wire formats keep the 64-bit pattern.
* `&str` is `List Char` or `String`; byte offsets are modelled where slicing may hit a character boundary.
* Calls into crates that are not present (`tempoch`, `qtty`, `affn`, `chrono`, `quick_xml`) are parameters with the assumed contract stated as hypotheses, or are left out.

## Plan per property

| id | model | proof |
|----|-------|-------|
| C01 | `checksum.rs` byte for byte on `UInt32`/`List UInt8` | refinement to a FIPS 180-4 spec (message padding, block split, rounds) for all messages |
| C02 | hex encoder and decoder on characters | round trips by induction; gate equivalence |
| C03 | checksum validator on character lists | equivalence with the mod 10 rule; single-substitution lemma |
| C04 | alpha-5 encode and decode | round trip by arithmetic over the whole range |
| C05 | year expansion | arithmetic |
| C06 | assumed-decimal writer and reader on exact decimals | round trip where the width fits; negation witness for the rounding overflow |
| C07 | TLE writer and parser columns | round trip on exact decimals, widths as guards; negation witness |
| C08 | byte-offset slicing on UTF-8 strings | negation witness; partial theorem for ASCII lines |
| C09 | `crc24` on 32-bit words | equals polynomial remainder over GF(2); burst detection from degree argument |
| C10 | `parse_frame` on character lists | equivalence |
| C11 | identification decoder | round trip on alphabet |
| C12 | altitude decoder | whole finite table plus arithmetic lemma |
| C13 | velocity decoder | per-field formula; negation witness for raw zero |
| C14 | CPR local decode over the reals/rationals with NL as parameter | floor/round argument |
| C15 | CPR global decode | modular argument; negation for NL = 1 |
| C16 | period builders over a linear order | induction on the crossing list |
| C17 | the same, with an evaluator | refinement to a set of instants |
| C18 | range builder | refinement |
| C19 | scan over a grid | invariant of the loop |
| C20 | scan over a grid | completeness by induction; negation for exact zeros |
| C21 | bisection, Brent engine over a linear ordered field | loop invariant |
| C22 | golden section over the reals | loop invariant, unimodality |
| C23 | DAF record walk as a step function | negation: cycle never ends; partial: forward chains |
| C24 | DAF parse of a laid-out file | round trip |
| C25 | segment readers over byte strings | bounds invariant |
| C26 | record location | floor argument |
| C27 | Lagrange formula over a field | uniqueness of interpolation |
| C28 | Hermite divided differences over a field | uniqueness of osculating interpolation |
| C29 | window selection | arithmetic |
| C30 | BFS chain search on segment lists | BFS invariant |
| C31 | the same | BFS completeness |
| C32 | the same with a potential function | telescoping sum |
| C33 | segment selection | list lemmas; negation for the in-file order |
| C34 | body formulas over a field | algebra |
| C35 | text kernel scanner | print/parse round trip; negation witnesses |
| C36 | leap-second table | sorted lookup |
| C37 | Julian Date formula over integers | arithmetic against a day-count spec |
| C38 | clock tables over a field | partition lookup and algebra |
| C39 | rotation matrices over the reals | negation of the pole claim; orthogonality proved |
| C40 | frame rotations as matrices | matrix algebra |
| C41 | frame resolution with fuel | negation: cyclic definition exhausts every fuel; partial with a rank |
| C42 | quaternion interpolation over the reals | trigonometric identities |
| C43 | classification over a linear ordered field | partition, monotone |
| C44 | phase labels over the reals | partition |
| C45 | phase geometry over the reals | range and law of cosines |
| C46 | cosine test over the reals | trigonometry |
| C47 | sine test over the reals | negation witness; partial statement of the true zero set |
| C48 | unwrapping closure as a state machine | invariant over histories |
| C49 | calendar conversion over integers | round trip for all days |
| C50 | OEM reader as a line automaton | refinement; negation with a covariance block |
| C51 | escape as character map | inverse |
| C52 | two SP3 readers as line automata | refinement between them |
| C53 | RINEX NAV record loop | negation: short body line panics; partial otherwise |
| C54 | field writer | width lemma, negation witness |
| C55 | SCK parser on bytes | equivalence |
| C56 | FFI helpers as state machine on an abstract heap | invariants |
| C57 | day iteration | coverage lemma |
| C58 | week/day arithmetic | bijection |
| C59 | horizontal formulas over the reals | vector identity |

## What is modelled, area by area

| area | /repo files and functions modelled | left out |
|------|------------------------------------|----------|
| `Sha256` | `src/**/checksum.rs`: `sha256`, hex encode/decode, the download gate | file reading (the bytes are given) |
| `Event` | `src/event/search/intervals.rs`: crossing scan, period builders, range builder, segmented search | the numerical root refinement (a parameter), `tempoch` period type |
| `Text` | the parts of `core`/`alloc` string and number formatting the parsers use | rounding of decimal text to 53 bits |
| `Tle` | `src/formats/tle/`: checksum, Alpha-5, year expansion, field parsers, line parser, writer | error texts, OMM |
| `RootFinding` | `src/event/search/root_finding.rs`: `bisection`, `brent`, `brent_with_values`, `brent_tol`, `brent_engine`; `extrema.rs`: golden section, `classify`, `find_extrema_tol`, `find_extrema_via_derivative` (model only) | rounding, NaN; `Quantity`/`Interval` wrappers are plain field elements |
| `Adsb` | `src/formats/adsb/mod.rs` and `cpr.rs`, all functions | error texts; floating point rounding |
| `Bits`, `Daf` | `src/formats/spice/daf.rs`, `spk.rs`, segment readers of `segment.rs` (382-588), on bytes and IEEE bit patterns, with checked (debug) and wrapping (release) integer arithmetic | error texts; locators with non-ASCII bytes (a parameter); offsets inside one record cannot overflow and are plain naturals |
| `Interp` | `src/formats/spice/segment.rs` evaluation (137-328, 590-673): record location, Type 2/3/9/13; `src/ephemeris/jpl/eval.rs`: TT to ET, record location, position and velocity, segment stack | rounding, non-finite epochs; Chebyshev summation is the crate `cheby`, a parameter with the contract `ChebContract` |
| `Verif.Spk` | `formats/spice/kernel.rs` find_chain, has_chain_ignoring_epoch, state; `spice/kernel_set.rs` state_naif; `formats/spice/spk_kernel.rs` try_position_from_ssb, try_edge_position_et, try_geometric_state, planet queries; `ephemeris/jpl/bodies.rs` | epochs in a linear order, states in a module over a field (exact), hash maps as association lists, segment evaluation a parameter, error payloads dropped; frame ids of segments ignored as in the code |
| `Verif/TextKernel` | `src/formats/spice/text.rs` (whole parser, lookups, number arrays), `lsk.rs` (from_text, offset lookup, epochs, Julian Date), `sclk.rs` (partition search, conversions) | `f64` values read from text are exact rationals, infinities, NaN; `total_cmp` without signed zero/NaN sign; `i64 as f64` exact; hash map as association list; error messages dropped; recursion depth (stack overflow on deep nesting) not modelled; `SclkKernel::from_text` and `tdb_minus_utc_at` not modelled |
| `Frames` | `src/formats/spice/pck.rs` (reading a text PCK after parsing, rotation), `src/spice/frame_registry.rs`, rotation queries of `src/spice/context.rs` | `FkKernel::from_text`; real arithmetic; error texts; recursion depth is fuel |
| `Ck` | `src/formats/spice/ck.rs`: normalisation, slerp, segment evaluation, choice of segment, sorting of records | reading of DAF words of a segment; `binary_search_by` is a parameter with its documented contract; real arithmetic |
| `Sky` | `src/event/solar/classification.rs` 131-147, `night_types.rs` 67-75, `src/event/lunar/phase.rs` 82-553, 626-674, 703-748, `src/event/azimuth/events.rs` 73-137, 182-212, 291-328, `src/event/horizontal.rs` 199-215, 256-295 | real arithmetic, `atan2` as complex argument, positions and root finders as parameters; the subtraction of the label loop as a parameter (for the rounding finding) |
| `Calendar`, `Ccsds` | `src/formats/ccsds/oem.rs` 40-151 (writer), 154-345, 347-419 (reader), 530-535 (escaping) | rational arithmetic; XML writer and reader in `OemXml`; error texts not modelled; casts of year, month and day treated as exact (proved in range) |
| `Sp3` | `src/formats/igs/sp3.rs` 60-469 (batch reader, streaming reader, writer) | input as raw lines followed by the end or a failure; chrono and tempoch as parameters with an assumption (`Good`) and an instance; rational arithmetic with infinities and NaN |
| `Rinex` | `src/formats/rinex/nav.rs` 206-569 | chrono and tempoch as parameters (`Env`, contract `Good`); numbers exact rationals (negative zero is zero); error texts as keys |
| `Sck` | `src/formats/sck.rs` `parse_sck`; `src/ephemeris/lagrange/mod.rs` 173-219 evaluation, `lagrange/fit.rs` 202-255 block loop, 298-315 configuration check | numbers of evaluation and fit are exact rationals; Chebyshev sum and fit of one block are parameters; `validate_fit` not modelled |
| `Cpf` | `src/formats/ilrs/cpf.rs` reader and writer | chrono and tempoch are parameters (`Sp3.Env`, `Cpf.Days`); numbers exact; error texts are keys |
| `Naming` | `src/pod/product/naming.rs` | dates are dates of the calendar with year not negative; chrono's difference and ordinal are counts of days |
| `Ffi` | `siderust-ffi/src/ffi_utils.rs`, `error.rs`, `types.rs` (enum tables, body-centric parameters, search options), `altitude.rs` (window), `subject.rs` (scalar and search calls), `oem.rs` 64-140, `bodies.rs` (handles, name), `target.rs` (handles), `coordinates.rs` 36-38, 181-450, 936-1043, 1232-1340, `sgp4.rs` and `lambert.rs` (codes) | memory as cells plus live blocks, allocator and astronomical computations are parameters, releasing a block that is not live is the outcome `none`; coordinates in any rational vector space; an enum argument outside its table (undefined behaviour) is not modelled |
| `Search` | `src/event/search/scan_fallback.rs`, `src/event/search/crossings.rs` | exact ordered field instead of `f64` (no NaN, no negative zero); diagnostics dropped; the polynomial crate `cheby` is an arbitrary function |
| `Solar` | `src/event/solar/daily_events.rs`, `src/event/solar/periods.rs` (above-threshold periods), `src/event/search/periods.rs` 15-21 | exact ordered field with floor; ephemerides, `acos` and the fast model are parameters; angles in turns; diagnostics dropped; reversed influence windows are ordinary pairs |
| `Altitude` | `src/event/altitude/events.rs` 45-452 (crossings, above, below, ranges), `src/event/search/periods.rs` | real numbers and real sine; `tempoch` periods are an algebra with contract; culminations not modelled |
| `Moon` | `src/event/lunar/moon_cache.rs` 67-475, `src/event/lunar/moon_equations.rs` 77-170, `src/event/horizontal.rs` 93-218 | real numbers; `cheby`, lunar theory, nutation series, precession, Earth rotation and sidereal time are parameters; casts to `usize` do not saturate; `find_and_label_crossings` of moon_cache.rs is dead code and left out |
| `Orbit` | `src/astro/orbit.rs`, `src/astro/conic.rs`, `src/astro/conic_equations.rs`, `src/astro/units.rs` 64-113, `siderust-ffi/src/coordinates.rs` 1084-1104, 1244-1290, `siderust-ffi/src/types.rs` 468-500, 689-704 | Real numbers. Solver of Kepler's equation (crate `keplerian`) is a parameter: elliptic residual at most τ, hyperbolic answers exact. Finiteness checks dropped. `tan` at a pole takes the limit value. |
| `Star` | `src/astro/proper_motion.rs`, `src/bodies/stars.rs` 145-252, `src/event/altitude/provider.rs` 241-259 | Real numbers. Reduction of angles by `affn` left out; unit conversions of `qtty` are constants, its year being 365.2425 days. |
| `Estimation` | `src/pod/estimation/wls.rs`, `sequential.rs`, `nonlinear.rs` | Real numbers; a non-finite number is `none` and absorbs, overflow left out. `faer`'s Cholesky factorisation is a parameter (succeeds exactly on positive definite matrices, solves exactly); out-of-bounds indexing panics. `affn`'s block covariance is a 6×6 matrix; the finiteness checks of the filter are dropped. `to_state_covariance` not modelled. |
| `Pod` | `src/pod/process/noise.rs` 58-261, 290-357, 403-426, `src/pod/propagation/integrators.rs` 101-125, `variational.rs` 53-61, 124-157, 270-293, `src/pod/qc/residuals.rs`, `orbit_compare.rs`, `src/pod/force/thrust.rs`, `low_thrust.rs`, `empirical_periodic.rs`, `src/pod/observation/corrections.rs` 157-418, `gnss_obs.rs` 157-525, `slr_obs.rs` 66-234, `batch.rs` 109-147 | Real numbers; tests for infinities and NaN dropped. Integrators and local orbital frame of `principia` and the instants of `tempoch` are parameters. Speed of light of `qtty` is a parameter of the GNSS residual. |
| `Earth` | src/astro/{era,sidereal,precession,cio,polar_motion,earth_rotation,earth_rotation_provider}.rs; src/coordinates/transform/providers/{mod,frames_inertial,frames_earth,frames_teme,frames_catalog}.rs (15 frames); to_topocentric.rs; the diurnal velocity of observer_state.rs | real arithmetic; `affn::Rotation3` is a real matrix with row-major literals and the active elementary rotations named in precession.rs 152-158; nutation model, EOP table and time-scale conversions are parameters; the body-fixed frames are not modelled |
| `Mission` | `src/mission/geometry/{occultation,eclipse,az_el_range,local_frame,orbit_relative,fov,terrain_mask}.rs` | real arithmetic, no NaN; `affn` vectors are Euclidean vectors (`Direction::new` and `cross` normalise, `cross` fails on parallel arguments, `line_of_sight_with_distance` is unit vector and distance, positions distinct); the mission context registry and sites are not modelled |
| `Apparent` | `src/astro/aberration.rs` 53-175, `src/astro/light_deflection.rs` 56-305, `src/astro/apparent.rs` 47-159, `src/event/stellar/altitude_periods.rs` 87-138, `src/event/horizontal.rs` 243-296 | real arithmetic; Earth velocity, the NPB matrix and GAST are parameters; directions are unit vectors |
| `Grid` | `src/coordinates/sampling.rs` 163-316 (`SkyGrid` constructors, `len`, iteration, weights) | angles in ℝ, `f64::round` as round half away from zero on ℝ, `as usize` saturating at 0 |
| `Forces` | `src/astro/dynamics/forces/{third_body,drag,srp,relativity,empirical,geopotential}.rs`, `src/astro/dynamics/{density,state,context}.rs`, `gravity/egm_low_degree.rs`, `propagation/propagator.rs` 67-98 | real arithmetic; ephemeris, ecliptic rotation, harmonic kernel and RK4 step are parameters; `NaN` only in `tryNew` and the step rule |
| `Kvn` | `formats/ccsds/opm.rs` 175-326, `tdm.rs` 122-302 (reader and writer of Orbit Parameter and Tracking Data Messages) | text is characters, line errors of the byte source left out; `{}` of an f64 in the TDM writer is a parameter with the contract that it parses back; f64 values are exact rationals, infinities or NaN |
| `Igs` | `formats/igs/orbex.rs` 130-309, `sinex.rs` 143-307, `antex.rs` 68-189 | text is characters, I/O errors left out; `NaiveDate::from_yo_opt` minus the MJD epoch is a parameter with the contract `YoOk` (instance `plainYo`); HashMaps only looked up are functions, walked ones lists in an arbitrary order; days + seconds/86400 exact; the unused SITE/ID block stores nothing |
| `Omm` | `src/formats/tle/omm/{mod,kvn,xml,json}.rs`, `src/formats/tle/builder.rs` | numbers are rationals, infinities or not-a-number; `chrono` and the time type are parameters (calendar fields of a time, the two date patterns, the time of calendar fields); the JSON text layer (`serde_json`) is not modelled, only the record and its conversion; a `HashMap` is the function it denotes |
| `Eop` | `src/formats/iers/eop.rs`, `src/astro/eop.rs`, `src/coordinates/transform/context.rs` 165-206 | exact arithmetic; interpolation over any ordered field; the reader keeps parsed infinities and NaN; text given as one string; `ModifiedJulianDate::try_new` accepts exactly the finite values; the `tempoch` table and time conversions are parameters |
| `Atmosphere` | `src/atmosphere/{airmass,extinction,rayleigh,mie,profile,airglow}.rs` | real arithmetic; non-finite numbers only where the code looks at them (airglow); tabulated phase functions (external `optica` grids) not modelled; ozone in `Passband` |
| `Crd` | `src/formats/ilrs/crd.rs` 246-445 | chrono and tempoch are parameters; exact arithmetic; an error is its line and missing field |
| `Obs` | `src/formats/rinex/obs.rs` 65-334 | `read_observation`, `write_observation`; numbers are exact rationals printed by `fmtFixed` (round half even), NaN and infinities outside; hash maps are association lists with lookup and insertion (order free, see C142); time conversions are the `Env` of `Sp3` |
| `Doris` | `src/formats/rinex/doris.rs` 80-169, `src/formats/vlbi/vgosdb.rs` 88-123 | the feature `doris` is on; exact arithmetic; `current_sat`, which is never set, is left out; overflow of `y - 1` for i32::MIN is a panic; I/O failures left out |
| `Lagrange` | `src/ephemeris/lagrange/{solver,mod,fit}.rs` | real arithmetic without NaN; gravitational constants, astronomical unit, ephemeris and the crate `cheby` are parameters with a contract (nodes inside (-1,1), interpolation exact at the nodes); loops over blocks and validation dates carry fuel, with hypotheses that it suffices; `try_jd_f64`, metadata and the embedded tables are left out |
| `Series` | `src/ephemeris/vsop87/{vsop87_impl,vsop87a}.rs`, `src/astro/nutation/{nut00a,mod}.rs` (not the matrices), `src/astro/era.rs` 331-335, `src/event/lunar/meeus_ch47.rs` | real arithmetic; coefficient tables, TT→TDB, mean obliquity and the four-lane sine and cosine are parameters; planetary rows carry unused zero coefficients for `t` |
| `Kernels` | formats/spice/{fk,ik,sclk}.rs `from_text` and lookups, spice/context.rs 63-145, kernel_set.rs push functions, frame_registry.rs 32-40 | numbers as in `TextKernel`; binary kernels and UTF-8 decoding are parameters of the loader; the leap-second, PCK and rotation parts are those of `TextKernel` and `Frames` |
| `Centers` | `coordinates/transform/providers/{mod,centers_standard,centers_planetary,centers_lagrange,frames_planetary}.rs`, `transform/centers/mod.rs`, `transform/ext.rs`, `astro/orientation.rs` | exact reals; ephemeris, VSOP87E series, Pluto's orbit, libration points and `Rotation3::from_euler_zxz` are parameters; missing implementations are `none` |
| `Horizon` | coordinates/horizontal.rs (azimuth conventions), coordinates/transform/horizontal.rs, coordinates/transform/frames/to_horizontal.rs, coordinates/observation/observational_direction.rs | exact real arithmetic; sidereal time, latitude and longitude are parameters; division by zero is `none`; the frame change of an observed direction is any linear isometry |
| `Product` | pod/product/orbit.rs, residuals_csv.rs, residuals_parquet.rs, pod/run/manifest.rs 15-48 | conversions of epochs (tempoch), serde_json and the Parquet file format are parameters; orbit numbers finite; the kind/path key is any linear order |
| `Assembly` | pod/force/registry.rs, pod/force/config.rs, pod/problem/covariance.rs, pod/problem/parameter.rs 83-96, pod/propagation/validation.rs | force models as names with parameters (their formulas are in `Forces`); error texts left out; covariance entries `f64` without rounding; transition check over the reals, the propagator (principia) any flow |
| `Handles` | siderust-ffi/src/dynamics.rs, runtime_ephemeris.rs, ephemeris.rs | heap as a map from addresses to boxed values, undefined behaviour an explicit outcome; integrator, epoch conversion, kernel reading and series are parameters; callbacks are functions (their `user_data` inside); the guard turning panics into a status is modelled for the propagation, the velocity query of the runtime ephemeris is not modelled |
| `Catalog` | src/catalogs/{record,catalog,ingest}.rs | angles and motions in exact real arithmetic; magnitudes and table numbers as the float values read (rational, infinite or NaN); conversion of degrees to radians on reading is left out (rows keep degrees) |
| `Bodies` | src/bodies/aircraft/{isa,inner(track)}.rs, event/lunar/photometry.rs, formats/spice/naif.rs, ephemeris/mod.rs (planet ids), bodies/{planets,comet,asteroid}.rs (builders) | exact reals; non-finite inputs only in the radiance; `Geodetic::new` of the external crate not modelled (its arguments are) |
| `MeanElements` | `src/astro/sgp4/{elements,propagator}.rs` | Real numbers, exact arithmetic; a number that is not finite is only possible for eccentricity and mean motion; epochs are day counts, the year is given; error texts left out. |
| `Stellar` | `src/event/stellar/star_equations.rs`, `src/event/stellar/altitude_periods.rs` 52-67, 160-286 | exact reals; matrix of the epoch, sidereal time, length of the sidereal day, `signum` and the root refinement are parameters; the below and range wrappers are period algebra (C17, C18) and left out |
| `Place` | src/coordinates/transform/frames/{bias,direction,velocity,to_ecliptic,to_equatorial,to_icrs,mod}.rs, src/coordinates/transform/ecliptic_of_date.rs, src/event/solar/sun_equations.rs, src/event/horizontal.rs 93-143 | exact reals; angles in radians; ephemeris vectors, nutation angles and the observer's J2000 vector are parameters; `affn` vector/angle conversions as in `Horizon`; `get_horizontal` (composition with `equatorial_to_horizontal`, C80) not repeated |
| `Provider` | `src/event/altitude/provider.rs`, `altitude/events.rs` 181-240, `azimuth/provider.rs`, `azimuth/events.rs` | position engines are parameters (the stellar one is `Apparent`); real arithmetic; the extrema search is modelled again with the state of the unwrapping closure passed through every call |
| `Boundary` | siderust-ffi/src/subject.rs (instantaneous altitude and azimuth), types.rs (event records), phase.rs | numbers written are real numbers; the call discipline is that of `Ffi`; rounding of the label loop is a parameter as in `Sky` |
| `Targets` | src/targets/transform.rs, siderust-ffi/src/target.rs | exact reals; numbers from C are real or not finite; angles of a fixed direction finite; `affn` constructors do not reduce angles; a direction is a place at distance one |
| `Passband` | `src/photometry/passbands/{mod,bessell1990}.rs` with the five data files, `src/atmosphere/ozone.rs` with `o3trans.dat` | `optica`'s `two_column` and `interp_at` are external: two numbers a line, `#` and blank lines dropped, linear interpolation, zero or end value outside; real arithmetic; the ozone text is taken as read; the SHA-256 of the files is not recomputed in the kernel (evaluated once outside: it agrees); provenance records left out |
| `Elp` | `src/ephemeris/elp2000/elp_series.rs`, `src/ephemeris/pluto.rs` | exact real arithmetic; coefficient tables and constants (`archive`) and the four-lane sine of `wide` are parameters, the latter with an error bound; final change of length unit left out |
| `OemXml` | `src/formats/ccsds/oem.rs` 450-535 (XML writer), 536-747 (XML reader) | quick_xml 0.40.1 as a tokenizer: start/end/empty tags, text cut at `&` references and trimmed, comments and declarations as passed events; its checks other than matching of end tags are not modelled; error texts reduced to their kind |
| `CFrames` | `siderust-ffi/src/coordinates.rs` 35-905, `siderust-ffi/src/context.rs`, `src/coordinates/transform/horizontal.rs` 90-133 | exact reals; rotations of `Earth`, angles of `Horizon`; dates refused by `try_jd_f64` as `none`; pointers as null flags |
| `COrbit` | `siderust-ffi/src/coordinates.rs` 1045-1234, `types.rs` 468-660 | C numbers are `Option ℝ`; what `kepler_position` does with elements that are no numbers is a parameter; the solver of Kepler's equation is that of `Orbit` |
| SunModel | `src/event/solar/daily_events.rs` 90-150, 543-587 (fast altitude, daily state), 360-400 and 482-504 with concrete functions | real arithmetic; ΔT is a parameter; finiteness test always passes |
| Spk.Coverage | `src/formats/spice/kernel.rs` 275-291, 333-351 (`coverage_for`, payload of the error) | infinities of the loop are `none`; NaN pair is `none` |
| Daf.Bsp | `src/formats/spice/spk.rs` 50-78, 275-324 (`parse_bsp`) | on top of Daf; error texts dropped |
| `CTle` | `siderust-ffi/src/sgp4.rs` (whole file), joined to `Tle` and `MeanElements` | The heap is a partial map, reads outside it are undefined behaviour; C strings are null, not UTF-8 or a text; real numbers after reading; the Julian date of an epoch is a parameter; `JulianDate::try_new` refuses exactly what is not finite. |
| Handover | src/pod/estimation/wls.rs 220-246, sequential.rs 78-103 | the covariance a batch solution hands to the filter, the filter's constructors; joined to Estimation (batch solution, scalar updates) | `affn` blocks by contract; exact arithmetic |
| StmCheck | src/pod/propagation/validation.rs 66-147 | whole function with its helpers; components are numbers or NaN | the propagators of `principia` are parameters; infinities left out; dt and step finite |
| CSky | siderust-ffi/src/sampling.rs (whole) | the C sky grid over Grid and the C arrays of Ffi; ring count for every class of f64 | real arithmetic; running out of memory is not modelled |
| Runtime | src/ephemeris/runtime_backend.rs 26-276, jpl/eval.rs 430-545, jpl/bodies.rs 85-303 | bytes to segments by Verif.Daf, evaluation of one segment by Verif.Interp; stack choice, pair filter and the five queries modelled; frame change and units are a linear map; coefficients that are not finite numbers count as zero; dataset download and file access not modelled |
| `CTarget` | `siderust-ffi/src/target.rs` 184-307 on a heap of boxed targets, with a client that makes calls in any order | angles of a direction and proper motions finite; heap is a partial map, use after release is undefined behaviour |
| `CEph` | `siderust-ffi/src/runtime_ephemeris.rs` 25-33, 85-105, 162-334 (bytes to handle to answer) on top of `Runtime` and `Daf` | heap as a partial map; `load_bsp`, `ensure` (file, download) not modelled |
| `Sites` | src/catalogs/observatories.rs, siderust-ffi/src/observatories.rs, siderust-ffi/src/twilight.rs, siderust-ffi/src/coordinates.rs 911-938 | exact reals, classes of f64 for twilight; affn's geodetic conversion is a parameter |
| `SolarSystem` | src/bodies/solar_system.rs (constants), src/bodies/planets.rs 77-86, satellite.rs 47-58, comet/asteroid constants, siderust-ffi/src/bodies.rs 251-361 (planets through C) | decimal literals as exact rationals; `PI`-free; positions of Lagrange points as points of Euclidean space |
| `CStar` | siderust-ffi/src/bodies.rs 36-245 (star handles), src/bodies/catalog.rs (constants), the star arm of `dispatch_subject!` | heap as a partial map; reads outside it are undefined behaviour; `Position::new` and upper case beyond ASCII are parameters; parallax and radial velocity of a star (not reachable from C) left out |
| `Bracketing` | `event/search/bracketing.rs`: fixed, adaptive and extrema-based seeding, the two searches away from a maximum, removal of duplicates | times and values are real numbers (so no NaN, no negative zero, no step lost to rounding); loops on fuel; `find_extrema` is a parameter; the module is `pub(crate)`-level code that nothing else in the crate calls |

## Findings: where the code disagrees with a claim

Each is a theorem with a concrete witness; the claim is kept as a `_partial` theorem.

* **C06** `Verif.Tle.Props.assumed_rounding_overflow`: writing a value whose five-digit mantissa rounds up to 100000 gives a field that reads back ten times too small or too large.
* **C07** `tle_bstar_overflow_rejected`, `tle_year_end_rejected`: some in-range elements are written as lines that the reader rejects, among them an epoch in the last moments of a year. The builder also does not check element-set number, revolution number and angle widths, and the reader accepts the words `inf` and `nan` in float columns.
* **C08** `parse_panics_on_multibyte`, `validate_panics_on_multibyte`: a line with multi-byte characters of total length 69 bytes makes the reader panic (slicing inside a character).
* **C13** `Verif.Adsb.Props.velocity_no_information_decoded`: raw 0 ("no information") is decoded as -1 unit; a message without information yields a ground speed, a heading and a descent rate of 64 ft/min.
* **C14** `local_wrong_at_87`: the zone count at latitude exactly ±87 is 1; the standard says 2. Even messages can carry exactly 87°, and their longitude is then decoded wrongly even with a perfect reference.
* **C15** `global_nan_at_pole`: with the odd message last in a polar cap the longitude is NaN (`rem_euclid(0)`). `global_latitude_unchecked`: fields that no position encodes give a latitude of 180°. Also, `decode_locally` may return a longitude below -180 (no lower fold).
* **C16-C18, C20** see the `_partial` theorems in `Verif.Event.Props`.
* **C22** the decimal constant `PHI` is not the golden ratio, so the retained probe drifts; the accuracy theorem carries the resulting floor of 2e-13 of the interval length.
* **C23** `Verif.Daf.daf_self_pointer_never_finishes`, `daf_hang_witness`: a summary record whose next pointer is itself keeps `Daf::parse` and `DafRaw::parse` in the loop for ever (and the summary list grows). `daf_panic_witness`: a next pointer of 2^54 panics in both builds.
* **C25** `spk_segment_debug_panic`: descriptor words -1, -1 overflow `start + 3` in a checked build. `spk_kernel_chebyshev_panics`, `spk_kernel_discrete_panics`: the readers of `segment.rs` do not check the word range before reading, so a short file panics. `segment.rs` also lets the coefficient table overlap the four trailer words. `spk_big_endian_words_reversed`: data words are always read little-endian, also in files whose descriptors were read big-endian.
* **C60** `Verif.RootFinding.Props.peak_in_first_step_missed`: a peak inside the first (or last) step of the period is not reported when the samples around it do not rise and fall.
* **C31** `find_chain` reports out-of-coverage whenever the bodies are connected with coverage ignored, even if no epoch has a chain (`Verif.Spk.Props.out_of_coverage_without_any_epoch`). The chain found can contain a segment of an unsupported type while another chain has none; the query then fails (`unsupported_segment_shadows_supported`).
* **C33** `SpkKernel` uses the first covering segment of a file for a pair (`kernel_first_in_file_wins`); SPICE and the other resolvers of the crate use the last. `KernelSet` never combines segments of two kernels in one chain (`kernel_set_does_not_chain_across_files`).
* **C34** The JPL runtime backend with an Earth segment that does not cover the epoch returns an error although the Moon segment would give the Earth (`earth_segment_out_of_range_no_fallback`); `SpkKernelSet` falls back.
* **Text kernels (C35).** The operator `+=` is searched for before `=` and inside quoted strings, so `A = 'b += c'` defines a variable named `A = 'B`. Comment marks are removed inside strings. A doubled quote is refused. Numbers with a Fortran `D` exponent (usual in NAIF kernels) are read as text. A value on the line after its `=` is refused. An unfinished statement is silently dropped at `\\begintext`.
* **Leap seconds (C36).** `tai_minus_utc_at` returns 0.0 before the first entry instead of reporting it.
* **Leap-second Julian Dates (C37).** Correct for 1901 to 2099 only; off by one day from 1 March 2100 on. Day numbers are not checked.
* **Spacecraft clocks (C38).** If a partition's ticks run past the start of the next, ticks are read back in the wrong partition; the code does not check this.
* **C39** `Verif.Frames.Props.pole_wrong`: the first and second rotations have the wrong sign; the pole comes out at right ascension `-ra`, and the prime meridian turns about it from a mirrored node (`meridian_image`).
* **C41** `cyclic_frames_diverge`: two frames defined relative to each other recurse without end. `radii_only_panics`: a later PCK that holds only radii of a body hides the orientation loaded before and its query panics (index into an empty list).
* **C64** `alias_order_matters`: `BODY499_PM` and `BODY0499_PM` are different keys of the same constant; which one counts depends on hash map order.
* **C42** `orthogonal_sign_matters`: for neighbours half a turn apart the stored sign decides the way round. `shadowed_segment`: a segment whose descriptor covers the time but whose records do not gives an error although a later segment has the attitude.
* Not provable here (outside knowledge): NAIF lists `TKFRAME_*_MATRIX` by columns, `fk.rs` reads it by rows; NAIF CK type 1 records do not have the five-word layout read by `ck.rs`.
* **C43** twilight: at each threshold (0, -6, -12, -18 degrees exactly) the code gives the darker class, as its boundary table says; the prose of the same module says the lighter one (`twilight_prose_wrong`). NaN is classed as dark.
* **C44** phase labels: for an elongation of `2^70` degrees the reduction loop subtracts 360 without effect after rounding and never ends (`large_elongation_never_finishes`). A window half width above 90 makes New Moon swallow the first quarter (`wide_window`).
* **C45** topocentric: when the Moon is due at the Sun's position with right ascension difference at least pi the elongation is `2π - 0`, a full turn, outside the documented `[0, 2π)` (`topocentric_full_turn`).
* **C46** `azimuth_range_periods` with `max - min > 360` treats an arc longer than a full turn as its complement (`long_arc_wrong`); no check rejects it.
* **C47** `azimuth_crossings` searches zeros of the sine of the azimuth difference and, unlike `find_phase_events`, does not filter the alias half a turn away: a body passing due south is reported as crossing north, with the direction reversed (`opposite_bearing_reported`).
* **C48** the comment of `make_az_unwrapped_fn` asks for evaluation in order of time; golden section does not evaluate in order. `unwrap_true` shows that only steps below half a turn are needed.
* **C65** `find_phase_events` ignores `PhaseSearchOpts::time_tolerance`. `MoonPhaseSeries::sample` with a step of zero or less never ends (`sample_never_finishes`).
* C50 (`block_loses_single_segment`, `block_loses_second_segment`, `unfinished_block_accepted`): in `read_oem` the segment being read is dropped when a covariance or manoeuvre block begins (the mode value holding it is overwritten), and the previously finished segment is taken up again instead. A file of one segment with a block is refused as empty.
* C49 (`iso_sixty_seconds`, `iso_negative_year`, `iso_accepts_nonsense`): seconds can print as `60.000000`; negative years are written but cannot be read; the reader accepts day 30 of February, hour 99 and seconds `nan`, so that `epoch` may be NaN although numbers are documented to be finite.
* C66 (`forged_metadata`): `write_oem` does not refuse a line feed in a name; the text after it is read as further metadata.
* C68 (`nearly_sixty_unreadable`, `leap_second_unreadable`): `write_sp3` prints seconds with eight decimals, so the last five nanoseconds of a minute, and every time inside a leap second, print as second 60; `read_sp3` refuses that line.
* C67 (`nonsense_seconds_accepted`, `rounding_up_second`): seconds `-7.5` and `nan` are read as second zero; `7.9999999999` is refused and `59.9999999999` becomes a leap second, because the nanoseconds are rounded up to a full second.
* C53 (`short_line_panics`, `non_ascii_panics`): `parse_rinex_nav_with_mode` in permissive mode, documented to skip malformed records, panics on any record with a body line of too few numbers (the count is checked in strict mode only, then `v1[3]` is indexed), and in both modes on a multi-byte character across the third byte of a record's first line. `wrapped_numbers_accepted`, `nonsense_seconds_are_zero`, `strict_accepts_nonsense`: month 4294967297 is January, seconds `-7` and `NaN` are zero, also in strict mode.
* C54 (`small_negative_clock_unreadable`, `small_negative_clock_refused`, `small_negative_clock_lost`): a negative number below 1e-9 fills the 19 columns of `fmt_d` and is glued to the field before it; a negative clock drift (usual for GPS) makes the whole file unreadable in strict mode and the record vanish in permissive mode. Non-finite clock terms do the same with 21 columns. `fraction_lost`, `leap_second_unreadable`, `three_digit_prn_unreadable`; `precision_claim_false`: the documentation claims round trips exact to 1e-15, thirteen digits are written.
* C55 (`small_file_panics`): the size of the declared payload is computed without checks: a file of 64 bytes panics (capacity overflow).
* C69 (`short_block_never_ends`, `zero_radius_nan`): a block length too short to change the start time in `f64` makes the fit loop endless, pushing records for ever; a record with radius zero evaluates to NaN without an error. The error reported by `fit_sun_earth_lagrange` as the best one is the one of the last order tried.
* C70 (`permissive_refuses`): permissive mode, documented to skip malformed position records, refuses the whole file on one record with an invalid day, date or second. `huge_mjd_panics`, `year_wraps` (MJD 1568704652919 is 2024-01-01), `bad_seconds_are_midnight`.
* C71 (`late_time_unreadable`, `step_lost`, `frame_lost`): a time in the last half millisecond of a day prints as second 86400.000, which the reader refuses in both modes; a step of 0.5 s comes back as 0, a step of 0 as 60; an empty frame comes back as `0`; the target name is replaced by the COSPAR number.
* C58 (`long_tokens`, `token_not_injective`): sample intervals of 100 hours and more give tokens of more than three characters; 60 s and 90 s share a token. Before the GPS epoch names contain a minus sign (`before_gps_minus`). `rnx_obs_filename` passes the two-character type `MO` to `igs_lfn`, which documents exactly three.
* **Horizontal directions through C are exchanged** (`coordinates.rs` 335, 376, 426): `sph_to_pair` returns (polar, azimuth) and the three callers bind it as `(az, alt)`, so `polar_deg` holds the azimuth and `azimuth_deg` the altitude, for every input (`horizontal_swapped`).
* **Proper motion of a generic target is ignored** by every altitude and azimuth query through C: `dispatch_subject!` uses `inner.position` (`ffi_utils.rs` 192-194, `generic_target_motion_ignored`); the frame label of a fixed direction is ignored too.
* **C centre shift ignores the length unit**: the offset in au is added to numbers in any unit (`transform_center_units`), and `siderust_from_bodycentric` labels its result au whatever the input unit (`bodycentric_unit_lost`).
* **Codes decoded by hand accept anything**: unknown orbit-centre codes mean heliocentric, unknown gravity models WGS-72, unknown transfer branches prograde (`unknown_codes_accepted`, `unknown_orbit_center`). A custom gravitational parameter does not survive the C struct (`params_round_trip_iff`).
* Search calls check their output pointers after running the search, so a null pointer can be reported as another error (`search_null_not_first`). No entry point uses `from_raw`: enum arguments arrive as Rust enums, so an unknown C value is undefined behaviour rather than an error (not modelled).
* **C75** `scan_labelled_crossings` drops a bracketed crossing when `brent_f64` returns `None` (100 iterations without convergence): the `if let Some(root)` at scan_fallback.rs 84 has no else branch. `scan_sign_change_reported_partial` therefore assumes an answer. The assumption cannot be dropped: `scan_loses_crossing` and `search_loses_crossing` exhibit a continuous piecewise linear signal (a constructed one, not an astronomical one; exact arithmetic) on a ten-minute cell for which the default tolerances lead to 100 iterations without an answer and the crossing is lost.
* **C75/C76** `brent_f64` can leave its bracket when the caller asks for a time tolerance below the spacing of `f64` at the date (about 1.8e-11 d today); hypothesis `Fine`.
* **C57 (event label)** `predict_day_crossings` labels a refined root with the direction of the *prediction* (daily_events.rs 454-457). A candidate predicted up to four hours before the window start passes the filter, its bracket is clipped to the window, and with the 4 h radius it reaches the *other* crossing of a day or night shorter than about four hours. The wrong label comes first and survives `sort_dedup`. Proved witnesses: `sunset_reported_as_sunrise` (daytime inverted), `sunrise_reported_as_sunset` (the whole morning is lost). For astronomical twilight such nights occur at latitudes of 43-48 degrees in June.
* **C57 (polar day)** `accept_no_crossing_day` tests three instants of a window of up to two days; for longitudes near zero these are three successive noons. At the beginning of the polar day the setting before the last midnight dip is found by the day before, and the rising after it is lost: `polar_day_reported_as_night`.
* **C57 (empty window)** `solar_above_threshold_impl` answers an empty or reversed window with one period when the Sun is above; the lunar and stellar searches answer with none (`empty_window_gives_period`).
* C77: altitude thresholds are compared through their sine, so a threshold outside ±90° is silently reflected (`threshold_reflected`); a target standing at 85° is reported above 100° all the time (`above_hundred_degrees`).
* C78: labels come from probes up to 86 s away. Three crossings within that distance all become "rising" and give overlapping periods (`above_periods_overlap`); a passage shorter than 86 s disappears although both roots were found (`short_passage_lost`).
* C80 (reading, no theorem): the lunar tables use the IAU 2000B nutation while the direct chain uses the default model (IAU 2006A); the bound of `cached_close_to_direct` therefore contains their difference `β`. `precession_matrix_iau2006` includes the frame bias, which the site vector has already received on its way to J2000.
* **C83** `TryFrom<KeplerianOrbit>` for `PreparedOrbit` (orbit.rs 346-353, also behind `Deserialize`) accepts any elements; a hyperbola is prepared and panics at every date (`try_from_accepts_hyperbola`). The documentation of `SiderustMeanMotionOrbit::try_to_rust` also promises a validation that `new_unchecked` does not make.
* **C84** The C functions `siderust_kepler_position_ex`, `siderust_to_bodycentric` and `siderust_from_bodycentric` propagate geocentric orbits with the Sun's gravitational parameter, while the Rust transformations use the Earth's (`c_geocentric_uses_sun`).
* **C86** `Star::position_at` counts motion from J2000.0 whatever epoch the catalogue entry has (`catalogue_epoch_ignored`); `track` and the altitude provider ignore proper motion (`track_ignores_motion`); per-day rates and radial velocities are converted with years of 365.2425 days but applied with years of 365.25 days (`mixed_years`, `radial_mixed_years`).
* **C87** `NormalEquations::add_row` indexes the matrix by the second index of a pair before checking it: a row whose first index is valid and another one is not panics instead of returning `InvalidIndex` (`add_row_panics`). A row refused for a non-finite partial has already been added in part, so the accumulator holds NaN afterwards (`rejected_row_spoils`). The documentation also names the wrong error for a non-finite residual.
* **C89** `gauss_newton` treats a previous χ² of zero as an infinite relative change: on data that fit exactly it never reports convergence although the first step is the solution (`perfect_fit_never_converges`; the crate's own test works around it with a tolerance of 2). Zero tolerances pass validation but can never be met (`zero_tolerance_never_converges`).
* C91: `GaussMarkov::variance_after` returns a negative variance for a negative step without an error (`backward_variance`).
* C92: `max_relative_difference` is documented to be 0 for a zero reference column; it is the largest component (`zero_column_difference`).
* C94: `rtn_diff` panics as soon as one reference state has no local orbital frame (`comparison_panics`).
* C95: a negative thrust magnitude is accepted; the ledger then gains mass and records a negative Δv (`negative_thrust`).
* C97: the relativistic clock correction of the GNSS residual is applied with the opposite sign, and a thousandth of its size if the speed of light is in metres per second (`relativistic_clock_wrong`).
* C98: the laser residual does not read the state it is given (`laser_ignores_state`); `residuals_at_epoch` only returns errors (`batch_never_ok`); the tolerance of 0.5 µs on epochs is below the resolution of a 64-bit Julian date, so only equal dates match (`batch_tolerance_void`).
* C97: the satellite position of a GNSS observation is documented as GCRS at the emission epoch, yet the Sagnac term (gnss_obs.rs 228-234, 333-373) is added as for Earth-fixed coordinates, so the Earth's rotation is counted twice (`rotation_counted_twice`).
* C100: `jd_ut1_from_tt_eop` (earth_rotation.rs 158-174) adds the provider's UT1−UTC to a date that already is UT1 when no bundle is loaded (`ut1_counted_twice`).
* C101: the direct rotations between mean and true equator of date and between J2000 and the true equator ignore the observed celestial pole offsets that the ICRS→true-of-date rotation applies (`offsets_lost`; frames_inertial.rs 160-200 against 244-259).
* C102: the GCRS→CIRS matrix (cio.rs 130-169) has third row (−X, −Y, Z) where the pole is (X, Y, Z): it moves the pole twice as far away instead of onto the axis (`intermediate_pole_missed`, `intermediate_pole_error`, `true_and_intermediate_pole`).
* C103: `to_ecliptic_of_date` (transform/ecliptic_of_date.rs 84-261) returns a type named EclipticTrueOfDate but uses the mean matrices, so its longitudes lack the nutation that `ecliptic_longitude` gives for the true ecliptic.
* C104: polar motion composes Rz(−s')·Ry(xp)·Rx(yp); the cited `iauPom00` is Rx(yp)·Ry(xp)·Rz(−s') in the same convention (`polar_motion_order`). The effect is xp·yp, about 1e-12.
* C105: the site conversion (earth_rotation_provider.rs 98-124) uses the GCRS→CIRS and CIRS→TIRS matrices where their inverses are needed: the site turns to the west (`site_turns_west`), the result contradicts the ITRF→J2000 frame rotation (`site_contradicts_frame`) and the diurnal velocity is opposite to the site's motion (`diurnal_velocity_reversed`).
* C106: `GALACTIC_TO_ICRS` (frames_catalog.rs 16-32) is the ICRS→Galactic matrix: it sends the Galactic pole 61° away from the north Galactic pole (`galactic_inverted`), and its element [1][2] is wrong from the tenth decimal (`galactic_rotation`). Were the literal column-major instead, the FK4 matrix beside it would be the inverted one (`fk4_rotation`).
* **C107** `occultation_fraction` takes the angular radius of a sphere as `atan(radius/distance)`; it is `asin`. From a low orbit the Earth's disc shrinks from about 70° to less than 45°, so a satellite from which the whole Sun is hidden is classified `Sunlight` while `line_of_sight_obstructed` says obstructed (`shadow_missed`). The errors are one-sided: a reported eclipse is real (`eclipse_sound`, `umbra_sound`), provided the Sun is beyond the body.
* **C107** `occultation_fraction` never compares distances: a body beyond the target hides it (`farther_body_hides`).
* **C109** `azimuth_elevation_range` puts radians in a `Direction<Horizontal>`, whose components are degrees everywhere else in the code (`zenith_not_ninety`; that the type is in degrees is read from the other uses, the type itself is in `affn`).
* **C109** the `status` of `azimuth_elevation_range` is always `Clear`, also through the Earth (`clear_through_body`).
* **C110** `TerrainMask::new` sorts before reducing azimuths to one turn; with a negative azimuth the profile misses its own sample (`mask_unsorted`).
* **C115** `AppliedCorrections.applied` is documented as a subset of `requested`, but `record` sets any flag (`report_outside`). `CORRECTION_ORDER` puts aberration before light deflection; the references it cites (SOFA, Klioner 2003) deflect in the rest frame and then aberrate, and the two orders give different directions (`order_matters`).
* **C116** `star_horizontal_with_policy` and `fixed_star_altitude_rad_with_policy` only test `policy == GEOMETRIC`: every other policy, including `APPARENT`, gives the mean-of-catalogue place rotated to date, without aberration, deflection or proper motion (`policies_indistinct`, `apparent_without_aberration`). `GEOMETRIC` subtracts a J2000 right ascension from the apparent sidereal time of date (`geometric_mixes`).
* **C114** (documentation only) the header formula of `light_deflection.rs`, `(s·q̂)q̂ − (q̂·s)s` with `q` from observer to deflector, is not the one computed; the code follows SOFA `iauLd` with `q` from the body to the observer, and that is what is proved.
* C117: `SkyGrid` rounds `360/az_step` to a number of columns but keeps the unrounded step in the uniform mode, so a step that does not divide the circle gives azimuth 360° (`azimuth_overflow`, step 144°), overlapping cells with too large a total solid angle (`overlap_total`) or uncovered directions (`coverage_gap`, step 250°).
* **C119** `ConstantDensity` returns its density below the surface although the trait promises an error (`constant_below_surface`; drag itself checks first). The description of `Nrlmsise00LiteApprox` says the slope is continued below the table; the code returns the first density (`no_extrapolation_below`). `DragForce.omega_earth` is a public vector, but only its third component enters (`tilted_rotation_ignored`).
* **C121** (reading) `geopotential.rs` 64 evaluates `earth_rotation_angle`, which takes a UT1 date, at the TT date: the field is turned by about 0.29° (69 s) too far to the east.
* **OPM is not lossless** (C124, `opm_lossless_iff`): the module promises a lossless round trip, but values are printed with six decimals; a velocity component comes back exactly only if it is a whole number of mm/s. `opm_lenient`: the version keyword is not asked for, block markers are ignored, NaN is accepted as a component, and values with the unit in brackets (allowed by CCSDS 502.0-B-3) are refused.
* **TDM** (C125): `integrated_relabelled` — DOPPLER_INTEGRATED is read as, and written again as, DOPPLER_INSTANTANEOUS; `segments_merged`, `placement_lost` — which metadata block an observation belongs to is lost; `standard_refused` — the standard's `keyword = epoch value` lines are refused, only `epoch : value` is accepted; `tdm_lenient` — an empty file is a message, an observable named COMMENT… disappears on the round trip.
* **ORBEX** (C126): documented errors are for strict mode only, but a field that is not a number is an error in permissive mode too (`orbex_permissive_refuses`); bad epochs are never an error — 2000/1/0 s is put in for what does not parse, MJD 0 for a day the year does not have and for records before the first header (`orbex_bad_epochs`); blocks are ignored, so lines of later blocks are read as records (`orbex_blocks_ignored`); headers of the published format (year month day hour minute second) are read with the month as day of year, for every date (`orbex_calendar_headers`).
* **SINEX** (C127): estimates are collected by station code alone, so points and solutions of one station are mixed and at most one is returned (`sinex_mixed`, `sinex_one_per_code`); two-digit years 51-79 become 2051-2079 where the format says 19xx (`sinex_pivot`); malformed epochs give MJD 0 or 2000-01-01 even in strict mode, a year beyond i32::MAX-1900 panics with overflow checks, a blank line in the block is an error in strict mode (`sinex_epochs_silent`). The documentation names the block SOLUTION/EPOCHS, which is not read; the order of the stations is that of the hash map.
* **ANTEX** (C128): `write_antex` promises an exact round trip; offsets are rounded to 0.01 mm, wide offsets run together and are dropped silently, names over 60 bytes are cut or panic inside a character (`antex_losses`, `antex_not_exact`).
* OMM: a catalogue number of six or more digits is written by the keyword and XML writers as it stands and refused by the readers, which take at most five characters (`kvn_large_refused`, `xml_large_refused`); the module says that all three forms round-trip. The JSON record keeps it (`json_round_trip`).
* OMM: the readers replace malformed optional numbers (`BSTAR`, `REV_AT_EPOCH`, …) by zero (`malformed_drag_zero`) although kvn.rs 79-80 promises `OmmMalformed` for any present but malformed numeric field.
* OMM: what follows `+` in an epoch is dropped, so `12:00:00+02:00` reads as 12:00 UTC (`zone_dropped`).
* OMM: the classification is decided by the first character of its field; a designator outside ASCII such as `1998-é` is not restored by expansion and contraction (example in `Omm/Props.lean`).
* **`interpolate` smears leap seconds** (`src/formats/iers/eop.rs` 147-153): UT1-UTC jumps by one second at a leap second, and the linear interpolation between the day before and the day after treats the jump as drift; `leap_second_smeared` gives the exact error (elapsed fraction of the day, in seconds; up to 15 arcseconds of Earth rotation).
* **`read_eop_c04` turns unreadable columns into zeros** (96-101): `bad_field_is_zero`. Also, the files published since 2023 carry an hour column after the day; each of their lines is read with the hour as the date (`example` beside the theorem).
* **`IersEop` fabricates zeros outside coverage** (`src/astro/eop.rs` 186-189 promise the opposite): `eop_at` is `try_eop_at().unwrap_or_default()`; `iers_fabricates`, `context_fabricates`. The frame transformations call `eop_at`.
* **Rayleigh depth takes the altitude off twice** (`src/atmosphere/rayleigh.rs` 80-90 with `src/atmosphere/profile.rs` 60-79): the presets give the pressure at the observatory, which already accounts for the air below it, and the result is multiplied by `exp(-h/H)` again. `altitude_twice`: in an exponential atmosphere the result is `exp(-2h/H)` of the sea-level depth; `paranal_too_clear`: less than 75 % of the pressure-scaled depth at every wavelength.
* **Negative optical depth in the far ultraviolet** (`rayleigh.rs` 87-88): below the pole of the quotient near 118 nm the depth is negative and the transmission exceeds one (`rayleigh_negative`); there is no domain check although `extinction.rs` promises values in `[0, 1]`.
* **Air mass below the horizon** (`airmass.rs`): the default formula depends on `sin² z` and mirrors objects above the horizon; `sec z` is negative (`airmass_below_horizon`).
* Laser ranging files (C140): the session date (record H4) is used for every point; after midnight, where the seconds of day restart, points are dated a day early (`midnight_goes_back`), and if the seconds run on past 86400 the point has no epoch (`epoch_past_midnight`). Field 9 after the time of flight is reported as return rate although the field order quoted in the code makes it the peak (`return_rate_is_peak`). `bin_size_s` is never filled (`point_range`). Records with the layout stations send (with a window length and no filter, quality and format flags) are read into the wrong fields (example). A fraction within half a nanosecond of a full second loses the epoch or becomes a leap second (example).
* C141: `write_observation` prints the seconds with `{:>11.7}`; a second ≥ 59.99999995 becomes `60.0000000`, which `read_observation` refuses, so the whole written file is unreadable (`sixty_refused`, `sixty_file`).
* C141: a value wider than 14 columns is written in full and moves the rest of the line: it is read back cut (a factor of 1000 in the witness) and the next value is lost (`wide_value_cut`).
* C141: values of satellites whose system has no code list are dropped silently by the writer (`undeclared_lost`); a marker of more than 60 bytes is cut or panics (`long_marker`).
* C142: `read_observation` indexes strings by byte columns: a multi-byte character across a limit panics (`other_text_panics`); event records (flag 2–5) are read as satellites (`events_read_as_satellites`); a code count larger than the list swallows lines up to the end of the file (`large_count_swallows`).
* C143: `current_sat` is never set, so measurements that continue on a second line are dropped and counted as unsupported (`continuation_lost`); an epoch line with fewer than six fields is ignored and the records after it get the epoch before (`stale_epoch`); fields that are not numbers count as 0 and month 0 is taken as the December before, and 31 November is accepted (`bad_dates_read`); a record without measurements is kept and also counted as unsupported (`empty_record_twice`); multi-byte characters across a column limit panic (`doris_panics`).
* `lagrange/solver.rs`: the line search halves 12 times, so alpha is at least 1/2048 and the exit `alpha <= 1/4096` never fires: when no trial lowers the residual the full, rejected step is taken (`no_descent_full_step`).
* `lagrange/solver.rs`: when the iterations run out the best point is accepted if its residual is at most 1e-6 km/s²; on the axis beyond the Sun this passes points nine million kilometres apart (`threshold_is_loose`, `line_made`).
* `lagrange/fit.rs`: validation runs up to `stop + 1e-9` s but the records end at `stop`: a date in that gap is refused as an invalid configuration (`past_end_refused`).
* `lagrange/fit.rs`: the error reported when no order meets the tolerance is that of the last order, not the best (`last_not_best`).
* `vsop87a.rs` 166-171: `Moon::vsop87a` evaluates the `EMB` tables: the answer is the Earth-Moon barycentre, not the Moon (`moon_is_barycentre`).
* `nut00a.rs` 134, `nutation/mod.rs` 237: the t⁴ coefficient of F is 0.000000417″ where the IERS Conventions, SOFA `iauFaf03` and the project's own `faf03` (era.rs 333) have 0.00000417″ (`latitude_argument_differs`, `latitude_argument_wrong`).
* fk.rs 89-100: a frame written `FRAME_+5_NAME` or `FRAME_007_NAME` is found by identifier, then looked up under the canonical spelling and refused as missing (`Kernels.Props.fk_alias_refused`).
* fk.rs 198-208: a class of 3.9 is read as 3, a centre of 1e99 as 2147483647 (`fk_fraction_cut`); `TKFRAME_n_SPEC = 'Matrix'` is refused because only upper case is compared (`fk_spec_case`); a class 4 frame without specification is accepted without a rotation (`fk_no_matrix`).
* ik.rs 96-107: a boresight with a non-numeric entry is silently dropped, while a non-numeric angle is refused (`ik_boresight_ignored`). `INSn_FOV_ANGLE_UNITS` is never read: radians are reported as degrees (`ik_units_ignored`).
* context.rs 107-145: loading a text kernel is not atomic: a text with leap seconds and a bad frame returns an error, yet its leap seconds replace those in force (`failed_load_kept`).
* context.rs 109-121: an instrument given only by its boresight, and a body given only by its prime meridian, are not detected: the file is accepted and ignored, although the instrument reader itself would read it (`undetected_kinds`).
* **Body-fixed orientation (C155).** `iau_body_fixed_to_icrs` passes `(-W, -(90°-δ₀), -(α₀+90°))` to `from_euler_zxz`. If that is the product `Rz·Rx·Rz` of the same active rotations used elsewhere, the result is ICRS→body, the inverse of what is declared; read right to left it mirrors the pole. Only axis rotations read right to left are right. The repository's tests (round trip, length, change with time) cannot tell them apart.
* **Mixed sources (C154).** Planet centres always use the built-in VSOP87E series whatever ephemeris the context carries, so a planet seen from the Sun or Earth has one end from each source (`planets_mix_sources`).
* **Observation (no theorem).** `solar_system.rs:237` writes the Sun's declination as `HourAngles::from_hms(-23, 0, 0.0)` converted to degrees, i.e. −345° instead of −23°.
* **C158: two handednesses of the horizontal frame.** `Position<Topocentric, Horizontal>` produced by frames/to_horizontal.rs:148-176 has its second axis towards the *west* (`y = -r cos(alt) sin(az)`); the one produced by transform/horizontal.rs:236-257 has it towards the *east*. Mixing the two mirrors the sky (`second_axis_disagrees`).
* **C158: mirrored azimuths.** The spherical form of the older transform goes through that cartesian vector, so its azimuths run from north through west although the frame declares north-clockwise; a star due east is reported at 270 degrees (`mean_azimuth_mirrored`). The repository's tests check only round trips, which a mirrored frame passes.
* **C158: undefined inverse.** to_horizontal.rs:109-136 divides by cos(lat) cos(dec): at the Earth's poles every direction gives NaN, and everywhere a target at the celestial pole does (`mean_pole_undefined`).
* **C159: ephemeris of the context ignored.** `ObserverState::geocentric` and `topocentric_with_ctx` (observer_state.rs:98, 135) take the Earth's velocity from `DefaultEphemeris` whatever ephemeris type the context carries.
* C160: `OemProductWriter::write_from_states` (pod/product/orbit.rs:344-352) creates (truncates) the file before `write_oem` refuses an empty series: the previous product is destroyed (`Product.refused_product_erases_file`). The metadata also say EME2000 although the states are GCRS.
* C161: the SP3 product header (pod/product/orbit.rs:77-93) always states 2024-01-01 0h, an interval of 900 s, GPS time (epochs are UTC) and IGS20 (states are GCRS); the GPS week is one column off and the number of epochs is outside columns 33-39 (`Product.sp3_header_same`, `Product.sp3_count_column`).
* C162: residuals_csv.rs:124-132 does not quote names: commas and line breaks in them make other fields and rows (`Product.csv_unquoted`).
* C163: manifest entries with the same kind and path keep their order of arrival (run/manifest.rs:36-48), so the canonical JSON is not order-free for them (`Product.json_order_kept`).
* C165: the default configuration has `j2 = true`, so setting `harmonics` gives both the J2 term and the geopotential (force/config.rs:66-85, 101-179): if the field contains its degree-2 zonal term, oblateness counts twice (`Assembly.default_config`, `Assembly.oblateness_twice`). The documentation calls the harmonics 'non-J2', the kernel is in principia.
* C166: covariance checks compare with `>` and `<` only, so NaN entries pass (problem/covariance.rs:80-108; `Assembly.nan_covariance_accepted`).
* **Callback providers attached through the C interface are never called** (`Handles.providers_unused`): the documentation of `SiderustAtmosphereVtable` says the function will be called during propagation, but the only propagators the interface offers are two-body ones. Under the contract that the two-body model does not read its context, removing every `_with_…` call from a program changes none of the other results.
* **The degree in a missing-coefficient error is cut to 16 bits** (`Handles.coefficient_error_cut`): asking for degree 65538 reports degree 2.
* **Cone search reports stars far outside the cone.** `inside_cone` (src/catalogs/catalog.rs) squares `sin(Δδ) * 0.5` where the haversine needs `sin(Δδ / 2)`. The value is too small by sin⁴(Δδ/2) (`haversine_short`), so nothing is missed (`cone_complete`), but a 60° cone holds every star on the meridian of its centre, and a cone of radius zero at one pole holds the other pole (`cone_false_hits`).
* **A catalogue table without a header line loses its first star silently** (`headerless_loses`), and `nan`/`inf` coordinates are accepted (`nan_accepted`); a NaN magnitude passes every magnitude limit (`gt_iff`).
* **The standard atmosphere is documented for geometric altitudes but is that of geopotential ones** (src/bodies/aircraft/isa.rs): pressures are too low everywhere but at sea level (`Isa.geometric_too_low`).
* **`PlanetBuilder::build_unchecked` drops the albedo** (src/bodies/planets.rs 184-194, `planet_unchecked`).
* **Dead reckoning passes the pole** with a latitude above 90° (`track_past_pole`).
* **Reflected lunar radiance**: an infinite phase angle gives 0 and an infinite wavelength the value at 1100 nm, although NaN is documented (`radiance_infinite`); the value goes as d⁻⁴ (`radiance_fourth`).
* **`naif_id_for_name("Pluto")` is the barycentre 9**, unlike every other planet name; `EARTH-MOON BARYCENTER` is unknown (`pluto_barycenter`, `hyphen_unknown`).
* C188: the TLE format prints half the first and a sixth of the second derivative of mean motion; `tle_to_elements` passes the printed numbers on and `propagate_native` uses them as the derivatives (`motion_not_printed`). The drag term `-1e-5·B*·|dt|` lowers the mean motion in both directions of time, so that positive drag *raises* the orbit (`drag_raises`), and it is not in the mean anomaly, so position and velocity do not belong to one motion (`anomaly`). `Wgs72Iau` is the same as `Wgs72` (`models_of_1972`) although documented with another sidereal-time convention; the sidereal time is not used at all.
* C191: the analytical star search (`find_star_above_periods`, the path documented for stars although only its own module calls it) refines each predicted crossing in a bracket of ±15 minutes. If the star stays above the threshold for at most 15 minutes, both brackets reach over the whole visit, neither has a change of sign, and the visit is silently dropped (`short_visit_missed`; concrete star in `short_visit_example`).
* **Ecliptic of date mislabelled** (C194): `to_ecliptic_of_date` returns `Direction<EclipticTrueOfDate>` but uses the mean obliquity and no nutation; for every direction off the ecliptic poles and every non-zero Δψ the value is not the one on the true ecliptic (`true_label_wrong`); the difference is exactly Δψ in longitude (`true_ecliptic`).
* **Frame bias applied twice** (C196): `Sun::get_apparent_geocentric_equ` and `geocentric_j2000_to_apparent_topocentric` multiply a vector of the mean equator of J2000 by the GCRS-to-true matrix (which contains the bias), whereas the frame network uses that matrix times the inverse bias. They agree exactly for vectors the bias leaves in place (`sun_against_network`); the Sun at the J2000 equinox is not one of them (`sun_equinox_off`).
* **C198**: within a scan step (two hours for Sun, Moon, planets) an azimuth that moves more than half a turn is unwrapped the wrong way; a monotone azimuth then yields a reported extremum (`zenith_passage_reported`).
* **C199**: `azimuth_at_with_policy` of `Star` uses the trait default and drops the policy, while `azimuth_periods` of the same star honours it (`star_azimuth_drops_policy`); Sun, Moon and planets ignore every policy (`solar_system_policy_ignored`); `SearchOpts::time_tolerance` never reaches azimuth crossings and periods (`tolerance_ignored`).
* `siderust_azimuth_at` (siderust-ffi/src/subject.rs:236-259) is documented to write degrees (`out_deg`, header lines 1894-1896) and writes the value of a `Radians`: `Boundary.azimuth_not_in_degrees` (C200).
* `siderust_moon_phase_label` (siderust-ffi/src/phase.rs:115-140) takes the elongation from C and normalises it by repeated subtraction: for a large elongation it never returns (`Boundary.label_call_hangs`, C201).
* The phase searches of the C interface (siderust-ffi/src/phase.rs:46-51, 150-262) copy the search options unchecked; NaN and negative tolerances are accepted, which the searches on subjects refuse (`Boundary.phase_options_unchecked`, `subject_options_checked`, C201).
* Converting a `CoordinateWithPM` to another frame turns the place and copies the proper motion (src/targets/transform.rs:56-106); generic targets of the C interface given in an ecliptic or equatorial frame are stored in ICRS the same way (siderust-ffi/src/target.rs:158-178). Unless the pole stays where it is, the converted target sets out in a wrong direction: `Targets.Props.motion_lost`, `library_motion`, `c_motion_lost` (C203).
* `Moon::get_geo_position` takes the square root of `1 - p² - q²` unchecked: where the Laskar polynomials leave the unit disc the place is not a number (`laskar_rigid`, C208).
* The field notes of `elp_structs.rs` disagree with the summation: `iz` is the multiplier of ζ, `o` (earth terms) and `theta` (planets) are phases in degrees, `a` and `o` (planets) the amplitudes; the model follows the summation (C207).
* C210: `read_oem_xml` promises to refuse non-finite components but reads `inf` and `nan` (`Verif.OemXml.Props.infinite_read`); text cut by a comment or a reference keeps only its last piece (`comment_splits`).
* C211: names with `&`, `<`, `>` or `"` are escaped by the XML writer, but the reader drops the references and keeps only the piece after the last one; a name is kept iff it has none of them and no white space around it (`name_kept_iff`); a name of special characters only makes the message unreadable (`name_lost`).
* C155: the rotation constants are the published linear parts (`Verif.Centers.angles_published`); the periodic terms of Neptune (0.70 degrees in right ascension) and of the Moon are not applied anywhere, although a comment in `solar_system.rs:203-205` says they are handled separately.
* C213: the horizontal C functions with a context turn the direction with the context's nutation but take the sidereal time from `Iau2006A` (`horizontal.rs:107-108`), so hour angles are off by the difference of the equations of the equinoxes (`Verif.CFrames.Props.horizon_mixes`).
* C212: the C interface always turns through ICRS and so applies observed pole offsets where the library's direct rotation between J2000 and the true equator of date does not; the two disagree whenever there is an offset (`c_and_library`, compare C101).
* C214: `siderust_kepler_position_ex` takes its elements unvalidated: with eccentricity 1 or more it answers `InternalPanic` where `siderust_prepared_orbit_create` answers `InvalidArgument`; the centre code only labels the result, the period is always that around the Sun. `SiderustMeanMotionOrbit::try_to_rust` is documented to validate but calls `new_unchecked` (only `try_to_rust_validated` does).
* `solar_sin_altitude_fast` (daily_events.rs 121) feeds the TT day number into a sidereal-time formula for UT1 and truncates its rate at 6.300388 rad/day. Its doc claims about one arcminute; `SunModel.fast_not_one_arcminute`: between 2010 and 2049 (ΔT 60-80 s) at every instant some place on the equator sees an altitude error above 5 arcminutes. Later refinement uses the precise altitude, so reported events are not affected.
* `coverage_for` (kernel.rs 333) intersects the segments of a pair: for a kernel with the parts [0, 10] and [20, 30] the error for epoch 15 names the window from 20 to 10, and for bodies linked only through a third one the window is NaN (`Spk.Coverage.window_not_coverage`, `window_missing`).
* `parse_bsp` (spk.rs 275) does not look at the frame of a summary, while `parse_indexed_segments` keeps only frame 1 (`Daf.Bsp.frame_ignored`), and uses only the first segment of each pair, so a kernel split in time is silently cut (`Daf.Bsp.later_ignored`).
* C220: `siderust_sgp4_new` takes every code other than 1 and 2 for WGS-72 instead of refusing it; code 1 ("IAU sidereal time") has the constants of code 0 and the sidereal time is used nowhere, so its states are those of code 0; an angle column that reads `nan` (or `inf`) passes the reader and makes a propagator, and then every date fails (`unknown_gravity_accepted`, `second_model_is_first`, `bad_angle_never_propagates`, with a concrete pair of lines).
* C222: `max_rel_stm_predict_error` reports 0 (perfect agreement) when the perturbed propagation, or the matrix, is NaN: `r > max` is false for a NaN and `f64::max` passes over it (`nan_is_perfect`, `nan_matrix_is_perfect`).
* C222: the documentation of `max_rel_stm_predict_error` divides each component by its own size; the code divides all six by the largest one, km and km/s together, so over long intervals the velocity rows of the matrix are hardly checked: for free motion a matrix without velocity rows is reported good to 1/t (`velocity_hidden`).
* C223: `siderust_sky_grid_cells` never returns `InvalidArgument`: non-positive steps and empty bands succeed with no cells (`unusable_accepted`), bands beyond the zenith give cells above 90° with negative solid angles although the C record documents [-90, 90] (`beyond_zenith`), and an infinite upper end asks for 2⁶⁴-1 rings (`infinite_band`).
* C224: `RuntimeEphemeris::from_bytes` accepts a kernel that has none of Sun, barycentre and Moon (`useless_kernel_loads`); every infallible query on it panics. A kernel with any segment for the Earth never falls back on the Moon (`earth_gap`).
* C227: `rnx_obs_filename` passes the two-character tag `MO` to `igs_lfn`, whose documentation asks for exactly three; observation names have 37 characters where orbit and clock names have 38. No builder checks the widths it documents, so a centre of four characters can produce the name of another product (`widths_unchecked`).
* C229: the record of an observatory and the atmosphere profile of the same site disagree for three sites of four: Roque de los Muchachos and La Silla 744 against 770 hPa, Mauna Kea 614 against 615 hPa and 4207 against 4205 m. The Rayleigh depth differs by 770/744 accordingly. (`profile_disagrees`, `rayleigh_disagrees`)
* C229: the pressure of Mauna Kea, 614 hPa, is documented as the ISA pressure at 4207 m; the library's own `pressure_at_altitude` gives less than 601 hPa there. (`mauna_kea_pressure`)
* C228: the C twilight functions answer Ok with "dark" for NaN; C229: `siderust_geodetic_new` accepts any numbers. (`not_a_number_is_dark`, `any_place_accepted`)
* C231 `moon_inside_earth`: `MOON` has semi-major axis 2.566881e-6 AU where 0.00257 AU is documented; the orbit lies inside the Earth.
* C231 `io_axis`: Io's semi-major axis is more than 600 km off the value written beside it.
* C231 `moon_periods`: `period()` uses the Sun's mass also for planet-centric orbits; the periods of all major moons come out more than thirty times too short.
* C231 `lagrange_apart`: `SUN_EARTH_L1` and `SUN_EARTH_L2` are 2 AU apart, on either side of the Sun.
* C231 `hale_bopp`, `halley_1986`: the mean anomalies of these comets do not belong to the epoch J2000 they are given for.
* C231 `sun_declination`: the Sun's declination is built with `from_hms(-23, 0, 0)`, which is -345 degrees.
* C232 `any_numbers`: `siderust_star_create` takes a mass, radius and luminosity that are negative, infinite or not numbers; only the epoch is examined.
* C233: `fixed_step_brackets` and `adaptive_step_brackets` do not refuse a step that is zero or negative; the scan then never ends (`no_step_no_end`). `adaptive_step_brackets` is documented to subdivide where the function changes rapidly, but subdivides only windows whose ends already differ in sign, so it finds exactly as many crossings as the fixed step (`adaptive_no_more`, `two_missed`). `extrema_based_brackets` samples a tenth of the whole remaining window around a maximum and can miss both crossings of a pass (`pass_missed`).
