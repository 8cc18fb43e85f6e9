{
 "claims": [
  {
   "property": "C01",
   "status": "proved",
   "theorems": [
    "QED.C01_cross_laws",
    "QED.C01_products_are_standard",
    "QED.C01_norm_is_unit",
    "QED.C01_norm_zero_is_nan"
   ],
   "note": ""
  },
  {
   "property": "C02",
   "status": "proved",
   "theorems": [
    "QED.C02_inverse",
    "QED.C02_product"
   ],
   "note": ""
  },
  {
   "property": "C03",
   "status": "partial",
   "theorems": [
    "QED.C03_refuted",
    "QED.C03_rotateToAxis_partial",
    "QED.C03_rotateToAxis_z"
   ],
   "note": "False of the code: turning -y onto +y gives a matrix that leaves -y where it is (ThreeVector.hh:96-105 uses diag(-1,1,-1) for every antiparallel pair). Proved: always a rotation; maps v onto the axis unless nearly antiparallel; for the axis z used by the program within 1e-5 for all v."
  },
  {
   "property": "C04",
   "status": "partial",
   "theorems": [
    "QED.C04_refuted",
    "QED.C04_direction_partial"
   ],
   "note": "False of the code: ThreeVector.hh:91 discards the normalised vector. Proved: the result is the difference vector, a unit vector only for points one unit apart."
  },
  {
   "property": "C05",
   "status": "proved",
   "theorems": [
    "QED.C05_on_segment_ties",
    "QED.C05_interior_ties",
    "QED.C05_on_segment",
    "QED.C05_interior",
    "QED.C05_at_samples"
   ],
   "note": ""
  },
  {
   "property": "C06",
   "status": "partial",
   "theorems": [
    "QED.C06_last_point_refuted",
    "QED.C06_above_refuted",
    "QED.C06_ends_partial"
   ],
   "note": "False of the code: at the last sample point Interpolate1D extends the first segment (lIndex/hIndex keep their initial 0,1); above it the result is off the straight continuation by one data increment (Numerics.cpp:36-41 measures from the last but one sample but starts at the last datum). Proved: exact values in all three end cases."
  },
  {
   "property": "C07",
   "status": "proved",
   "theorems": [
    "QED.C07_nearest"
   ],
   "note": ""
  },
  {
   "property": "C08",
   "status": "partial",
   "theorems": [
    "QED.C08_refuted",
    "QED.C08_last_interval_refuted",
    "QED.C08_bracket_partial"
   ],
   "note": "False of the code: ClosestPoints exits with -1 for every query above the last but one sample (compares with size-2). Proved: correct bracketing up to the last but one sample."
  },
  {
   "property": "C09",
   "status": "partial",
   "theorems": [
    "QED.C09_refuted",
    "QED.C09_simpson_partial"
   ],
   "note": "False for even numbers of points (two points and constant 1 give 2/3). Proved: exact on all cubics for every odd number of points from three."
  },
  {
   "property": "C10",
   "status": "partial",
   "theorems": [
    "QED.C10_first_index_refuted",
    "QED.C10_refuted",
    "QED.C10_slices_partial",
    "QED.C10_probability_partial"
   ],
   "note": "False of the code: the search starts at index 1, so index 0 is only returned when no cumulative weight exceeds the draw. Proved: index 0 is never drawn for two or more positive weights, and index 1 gets the weight of both; every later index has exactly its weight."
  },
  {
   "property": "C11",
   "status": "partial",
   "theorems": [
    "QED.C11_setSeed_no_effect_refuted",
    "QED.C11_refuted",
    "QED.C11_determined_by_generator_partial",
    "QED.C11_c_library_partial"
   ],
   "note": "False of the code: SetSeed seeds the C library generator, which no sampling function uses. Proved: sampling results are a function of the generator state alone and SetSeed leaves it unchanged."
  },
  {
   "property": "C12",
   "status": "proved",
   "theorems": [
    "QED.C12_lepton",
    "QED.C12_photon"
   ],
   "note": ""
  },
  {
   "property": "C13",
   "status": "proved",
   "theorems": [
    "QED.C13_bounded_sequence",
    "QED.C13_append_only"
   ],
   "note": ""
  },
  {
   "property": "C14",
   "status": "proved",
   "theorems": [
    "QED.C14_histories_aligned",
    "QED.C14_push_records"
   ],
   "note": ""
  },
  {
   "property": "C15",
   "status": "partial",
   "theorems": [
    "QED.C15_push_entry_partial",
    "QED.C15_recoil_entry_partial",
    "QED.C15_refuted"
   ],
   "note": "False of the code: a push records the time before the step together with the position and momentum after it, so the recorded time lags by one step. Proved: exactly which time is recorded by pushes and recoils."
  },
  {
   "property": "C16",
   "status": "proved",
   "theorems": [
    "QED.C16_initial_depth_nonneg",
    "QED.C16_created_with_depth",
    "QED.C16_emission_increment_nonneg",
    "QED.C16_pair_increment_nonneg",
    "QED.C16_stochastic",
    "QED.C16_pair",
    "QED.C16_depth_kept"
   ],
   "note": ""
  },
  {
   "property": "C17",
   "status": "proved",
   "theorems": [
    "QED.C17_events",
    "QED.C17_depleted",
    "QED.C17_unknown_type"
   ],
   "note": "Any scalar type in which -1 == -1 and 1 != -1 (a class of two facts, shown for R and for reals with NaN). Also: an unknown type ends the program."
  },
  {
   "property": "C18",
   "status": "partial",
   "theorems": [
    "QED.C18_mirrored",
    "QED.C18_aligned_iff",
    "QED.C18_along_z_partial",
    "QED.C18_refuted"
   ],
   "note": "False of the code: GenerateList applies the matrix that turns the direction onto z to the vector z, so the transverse components of the direction are reversed; a source along x shoots along -x. Proved: the exact emitted direction for every configuration, and that it is the configured one exactly for directions along +z or -z."
  },
  {
   "property": "C19",
   "status": "partial",
   "theorems": [
    "QED.C19_reported",
    "QED.C19_photons_partial",
    "QED.C19_leptons_refuted"
   ],
   "note": "False for leptons: the constructor takes the energy as momentum magnitude, so the particle reports sqrt(1+E^2), larger than E for every sample. Proved: exact reported energy for all types; photons with E >= 0 are right."
  },
  {
   "property": "C20",
   "status": "partial",
   "theorems": [
    "QED.C20_default_spread_refuted",
    "QED.C20_mono_iff",
    "QED.C20_range_partial",
    "QED.C20_refuted"
   ],
   "note": "False of the code: the default branch samples uniformly between mean and sigma. With the default sigma 0 and any positive mean this violates the precondition of std::uniform_real_distribution. Proved: mono-energetic exactly when mean = sigma; otherwise values in [mean, sigma]."
  },
  {
   "property": "C21",
   "status": "partial",
   "theorems": [
    "QED.C21_plane_iff",
    "QED.C21_gauss_iff",
    "QED.C21_transverse_partial",
    "QED.C21_refuted"
   ],
   "note": "False of the code: B is (sin, cos) of the polarisation angle instead of (-sin, cos). Proved: a wave exactly when the angle is a multiple of pi; E and B transverse and equally strong for every angle; directions within 1e-5 of -z excluded."
  },
  {
   "property": "C22",
   "status": "proved",
   "theorems": [
    "QED.C22_plane",
    "QED.C22_gauss",
    "QED.C22_static"
   ],
   "note": ""
  },
  {
   "property": "C23",
   "status": "partial",
   "theorems": [
    "QED.C23_ignores_position_refuted",
    "QED.C23_origin_partial",
    "QED.C23_gauss_refuted",
    "QED.C23_focusing_refuted"
   ],
   "note": "False of the code: the field depends only on focus - start, the focus is always at the coordinate origin (proved for all parameters). Proved: with the focus at the origin the Gaussian pulse peaks there at the right time."
  },
  {
   "property": "C24",
   "status": "partial",
   "theorems": [
    "QED.C24_support",
    "QED.C24_magnitude_refuted",
    "QED.C24_polarisation_partial"
   ],
   "note": "First half proved. Second half false: the second polarisation assignment uses the overwritten x component; at angle pi/2 a field of 1/sqrt 2 becomes zero. Proved for multiples of pi, and that the longitudinal electric field does not depend on the angle."
  },
  {
   "property": "C25",
   "status": "partial",
   "theorems": [
    "QED.C25_plane_partial",
    "QED.C25_refuted"
   ],
   "note": "False within 1e-5 of -z (RotateToAxis treats these as -z). Proved for all other directions, -z included."
  },
  {
   "property": "C26",
   "status": "proved",
   "theorems": [
    "QED.C26_one_push",
    "QED.C26_pushes"
   ],
   "note": ""
  },
  {
   "property": "C27",
   "status": "proved",
   "theorems": [
    "QED.C27_subluminal"
   ],
   "note": ""
  },
  {
   "property": "C28",
   "status": "proved",
   "theorems": [
    "QED.C28_uniform_E",
    "QED.C28_free_flight"
   ],
   "note": ""
  },
  {
   "property": "C29",
   "status": "proved",
   "theorems": [
    "QED.C29_radiation_reaction",
    "QED.C29_not_vacuous"
   ],
   "note": ""
  },
  {
   "property": "C30",
   "status": "proved",
   "theorems": [
    "QED.C30_dead_forever",
    "QED.C30_dead_inert"
   ],
   "note": ""
  },
  {
   "property": "C31",
   "status": "proved",
   "theorems": [
    "QED.C31_charge_conjugation"
   ],
   "note": ""
  },
  {
   "property": "C32",
   "status": "partial",
   "theorems": [
    "QED.C32_momentum_partial",
    "QED.C32_backward_refuted",
    "QED.C32_refuted"
   ],
   "note": "False of the code when the photon has more energy than the lepton had momentum: the photon direction is read after the recoil (StochasticEmission.cpp:46-48), so it flies backwards. Proved: conserved whenever the photon energy is below the lepton momentum; violated for every stored photon above it."
  },
  {
   "property": "C33",
   "status": "partial",
   "theorems": [
    "QED.C33_never_refuted",
    "QED.C33_refuted"
   ],
   "note": "False of the code: the test is sampleFrac < rand, so with sample fraction 1 no draw in [0,1) ever stores a photon (proved for all draws)."
  },
  {
   "property": "C34",
   "status": "partial",
   "theorems": [
    "QED.C34_stochastic_expectation",
    "QED.C34_stochastic_refuted",
    "QED.C34_refuted",
    "QED.C34_continuous_partial"
   ],
   "note": "False for stochastic emission: the expected stored weight is (1-f)w/f, equal to w only for f = 1/2. Proved: continuous emission is unbiased for every f in (0,1]."
  },
  {
   "property": "C35",
   "status": "proved",
   "theorems": [
    "QED.C35_continuous",
    "QED.C35_parent"
   ],
   "note": "Real arithmetic, parent with non-zero momentum and minimum energy >= 0; that the parent is untouched and at most one photon is added is proved for every scalar type."
  },
  {
   "property": "C36",
   "status": "partial",
   "theorems": [
    "QED.C36_conversion_partial",
    "QED.C36_one_slot_refuted",
    "QED.C36_nan_refuted"
   ],
   "note": "False for a list with one free slot (the electron is dropped while the photon dies) and for splits that leave a lepton less than its rest energy (square root of a negative number: NaN momentum). Proved: everything as stated when two slots are free and both shares reach the rest energy."
  },
  {
   "property": "C37",
   "status": "partial",
   "theorems": [
    "QED.C37_vacuum_partial",
    "QED.C37_vacuum_refuted",
    "QED.C37_nan_never_converts_refuted",
    "QED.C37_event_refuted",
    "QED.C37_shipped_refuted"
   ],
   "note": "False of the code: in zero field chi=0, log10 gives -inf and a table that starts flat, as the shipped pairprod table does (C37_shipped_refuted), gives -inf*0 = NaN; the optical depth stays NaN and the photon never converts in any later field (proved for every event). Proved: tables that rise at the start leave the photon unchanged."
  },
  {
   "property": "C38",
   "status": "partial",
   "theorems": [
    "QED.C38_loaded_partial",
    "QED.C38_energy_partial",
    "QED.C38_refuted"
   ],
   "note": "False below the first eta of the table (C38_refuted). Proved for eta not below it, for rows with ties and rows that do not start at 0, as in the shipped table; C38_loaded_partial proves it for every square table loaded from files."
  },
  {
   "property": "C39",
   "status": "proved",
   "theorems": [
    "QED.C39_no_outside_reads",
    "QED.C39_event"
   ],
   "note": "For every scalar type, including NaN. Whole events: without histograms."
  },
  {
   "property": "C40",
   "status": "proved",
   "theorems": [
    "QED.C40_steps_independent",
    "QED.C40_particle_loop_bounded",
    "QED.C40_steps",
    "QED.C40_terminates",
    "QED.C40_diverges"
   ],
   "note": ""
  },
  {
   "property": "C41",
   "status": "proved",
   "theorems": [
    "QED.C41_filled_once",
    "QED.C41_timing"
   ],
   "note": ""
  },
  {
   "property": "C42",
   "status": "partial",
   "theorems": [
    "QED.C42_primaries_partial",
    "QED.C42_secondaries_ahead_partial",
    "QED.C42_refuted"
   ],
   "note": "False of the code: the particle loop reaches particles created in the same step and pushes them once more. Proved: particles present at the start keep the simulation time while alive; every secondary is ahead by a whole number (at least one) of steps."
  },
  {
   "property": "C43",
   "status": "proved",
   "theorems": [
    "QED.C43_charge",
    "QED.C43_alive_charge"
   ],
   "note": ""
  },
  {
   "property": "C44",
   "status": "proved",
   "theorems": [
    "QED.C44_grow_and_keep_identity",
    "QED.C44_length"
   ],
   "note": ""
  },
  {
   "property": "C45",
   "status": "proved",
   "theorems": [
    "QED.C45_counts",
    "QED.C45_event",
    "QED.C45_one_bin"
   ],
   "note": ""
  },
  {
   "property": "C46",
   "status": "partial",
   "theorems": [
    "QED.C46_energy_partial",
    "QED.C46_type_ignored",
    "QED.C46_refuted"
   ],
   "note": "Proved for type energy; refuted for x, y, z, px, py and pz (C46_refuted): the test `m_type == \"Energy\" || \"energy\"` is always true, so every histogram bins the energy (C46_type_ignored)."
  },
  {
   "property": "C47",
   "status": "partial",
   "theorems": [
    "QED.C47_unit_weight_partial",
    "QED.C47_refuted"
   ],
   "note": "Proved for weight one; refuted for every other weight (C47_refuted): bins are incremented by one and the weight is never read."
  },
  {
   "property": "C48",
   "status": "partial",
   "theorems": [
    "QED.C48_sum_one_partial",
    "QED.C48_refuted",
    "QED.C48_ratios",
    "QED.C48_empty_is_nan"
   ],
   "note": "Ratios are preserved in full. The sum is one provided the entry counter, left uninitialised by the constructor, does not wrap to zero; C48_refuted is the wrapping case. C48_empty_is_nan: with nothing inside the range all bins become NaN."
  },
  {
   "property": "C49",
   "status": "proved",
   "theorems": [
    "QED.C49_merge_adds",
    "QED.C49_incompatible",
    "QED.C49_any_order",
    "QED.C49_sum"
   ],
   "note": ""
  },
  {
   "property": "C50",
   "status": "partial",
   "theorems": [
    "QED.C50_refuted"
   ],
   "note": "Refuted for every range and particle sequence (C50_refuted): the only bin centre is NaN, so nothing is ever counted."
  },
  {
   "property": "C51",
   "status": "partial",
   "theorems": [
    "QED.C51_tables_partial",
    "QED.C51_counts",
    "QED.C51_file_partial",
    "QED.C51_refuted",
    "QED.C51_many_rows_refuted"
   ],
   "note": "The arrays handed to the file are right for every order of the store calls (below 2^29 rows of a species); with 2^29 rows or more the copy writes out of bounds, and the file itself never receives the tables (C54)."
  },
  {
   "property": "C52",
   "status": "partial",
   "theorems": [
    "QED.C52_table_partial",
    "QED.C52_refuted"
   ],
   "note": "False: dead photons stay in the list and in tables and histograms. Exact condition proved for the table; concrete event refutes it for both."
  },
  {
   "property": "C53",
   "status": "partial",
   "theorems": [
    "QED.C53_refuted",
    "QED.C53_second_source_refuted"
   ],
   "note": "False: no history of calls that returns normally leaves anything in the file; even with all groups present a second source always collides with the first on the name of the table."
  },
  {
   "property": "C54",
   "status": "partial",
   "theorems": [
    "QED.C54_refuted",
    "QED.C54_exact"
   ],
   "note": "False for every file and every name; exact behaviour proved. Assumes H5Gget_objinfo returns 0 for an existing object and a negative number otherwise."
  },
  {
   "property": "C55",
   "status": "partial",
   "theorems": [
    "QED.C55_partial",
    "QED.C55_refuted",
    "QED.C55_many_rows_refuted"
   ],
   "note": "Proved for all rank counts, sources and schedules, with and without buffering by the MPI library, with the file abstracted: every execution is finite, never deadlocks, and the gathered tables are in rank order (C55_partial). False of the code as a whole: writing to a new file always throws (C55_refuted, see C54), and 2^28 or more rows make the int array size negative (C55_many_rows_refuted)."
  },
  {
   "property": "C56",
   "status": "partial",
   "theorems": [
    "QED.C56_partial",
    "QED.C56_order_partial",
    "QED.C56_refuted"
   ],
   "note": "Proved for all rank counts, histogram counts, arrival orders: bin-wise sum over all ranks in exact arithmetic (C56_partial); in any arithmetic the sum in some order of the ranks (C56_order_partial). False of the code as a whole: writing a histogram always throws (C56_refuted, see C54)."
  },
  {
   "property": "C57",
   "status": "partial",
   "theorems": [
    "QED.C57_in_range_partial",
    "QED.C57_completes_partial",
    "QED.C57_no_overlap_partial",
    "QED.C57_race_iff",
    "QED.C57_shared_sample_refuted",
    "QED.C57_mixed_sample_refuted",
    "QED.C57_iff_partial",
    "QED.C57_refuted",
    "QED.C57_depleted",
    "QED.C57_coherent_call",
    "QED.C57_mixed_event"
   ],
   "note": "False of the code: the sample counter is a plain shared integer. Proved: a single-threaded (or serialised) execution gives each sample once; any execution stays in range and completes; the program has a data race exactly when two threads still have events to start; two threads can get the same sample, and a particle can mix components of two samples (witness schedules)."
  },
  {
   "property": "C58",
   "status": "partial",
   "theorems": [
    "QED.C58_index_partial",
    "QED.C58_buffer_partial",
    "QED.C58_refuted"
   ],
   "note": "Proved up to 2^32 grid points; false above, where the 32-bit index wraps."
  },
  {
   "property": "C59",
   "status": "proved",
   "theorems": [
    "QED.C59_round_trip",
    "QED.C59_long_section"
   ],
   "note": "Well-formed includes the limits of the format: lines of at most 198 characters and section names of at most 49; C59_long_section shows what happens to longer section names."
  },
  {
   "property": "C60",
   "status": "partial",
   "theorems": [
    "QED.C60_inert_lines_partial",
    "QED.C60_refuted"
   ],
   "note": "Proved for files whose lines have at most 199 characters. False for longer comments (C60_refuted): the rest of the line is read as a new line."
  },
  {
   "property": "C61",
   "status": "partial",
   "theorems": [
    "QED.C61_any_case_partial",
    "QED.C61_request",
    "QED.C61_refuted"
   ],
   "note": "Values are found in any case; section detection is case-sensitive, so a file with [general] is rejected although its values are found (C61_refuted)."
  },
  {
   "property": "C62",
   "status": "partial",
   "theorems": [
    "QED.C62_meaning",
    "QED.C62_first_error_partial",
    "QED.C62_bad_lines_skipped",
    "QED.C62_unterminated",
    "QED.C62_refuted"
   ],
   "note": "Proved for files whose lines have at most 198 characters and that do not start with a byte order mark. False for longer lines (C62_refuted)."
  },
  {
   "property": "C63",
   "status": "partial",
   "theorems": [
    "QED.C63_short_lines_partial",
    "QED.C63_refuted"
   ],
   "note": "Proved for lines of at most 199 characters. False for longer ones (C63_refuted): the value is cut."
  },
  {
   "property": "C64",
   "status": "partial",
   "theorems": [
    "QED.C64_spaced_partial",
    "QED.C64_refuted",
    "QED.C64_upper_refuted",
    "QED.C64_default_ignored"
   ],
   "note": "Proved for the form with spaces after the commas. False for [a,b,c] without spaces (C64_refuted, read as one number), for capital exponents (C64_upper_refuted, 1E3 is read as 13) and for the default (C64_default_ignored)."
  },
  {
   "property": "C65",
   "status": "proved",
   "theorems": [
    "QED.C65_three",
    "QED.C65_any_number",
    "QED.C65_from_file"
   ],
   "note": ""
  },
  {
   "property": "C66",
   "status": "proved",
   "theorems": [
    "QED.C66_accepts_iff",
    "QED.C66_rejected",
    "QED.C66_starts_iff"
   ],
   "note": "Exact characterisation for every reader state, a list of defects for written configurations, and the whole way from the command line to the set-up. Sources with unknown type are the subject of the source properties."
  },
  {
   "property": "C67",
   "status": "partial",
   "theorems": [
    "QED.C67_sources_partial",
    "QED.C67_histograms_partial",
    "QED.C67_refuted"
   ],
   "note": "Holds for sections that have at least one entry. An empty section is not recorded, which also hides all sections with higher numbers (C67_refuted). The section counter is not taken modulo 2^32."
  },
  {
   "property": "C68",
   "status": "proved",
   "theorems": [
    "QED.C68_selection",
    "QED.C68_from_file"
   ],
   "note": "For every input; also from the text of the file."
  },
  {
   "property": "C69",
   "status": "partial",
   "theorems": [
    "QED.C69_runs_iff",
    "QED.C69_error_code_partial",
    "QED.C69_refuted"
   ],
   "note": "When a run starts is characterised exactly. An argument of fewer than four characters other than -h ends in an uncaught std::out_of_range instead of an error code (C69_refuted)."
  },
  {
   "property": "C70",
   "status": "partial",
   "theorems": [
    "QED.C70_destroy_iff",
    "QED.C70_beamOn_iff",
    "QED.C70_partial",
    "QED.C70_refuted"
   ],
   "note": "False of the code: a beamOn that is turned down after an earlier one that ran leaves dangling pointers. Proved: destruction (and any further beamOn) is a double free exactly for histories in which a started run is followed by one turned down for an incomplete configuration."
  },
  {
   "property": "C71",
   "status": "partial",
   "theorems": [
    "QED.C71_names_iff",
    "QED.C71_names_partial",
    "QED.C71_refuted",
    "QED.C71_runs_partial",
    "QED.C71_misspelt_refuted"
   ],
   "note": "False of the code: the documented name \"classical\" is rejected and the misspelling \"clasical\" is accepted and runs the quantum model. Proved for all other strings: accepted exactly if documented, and every event of a run is an execution of the named model's equation of motion and emission process."
  },
  {
   "property": "C72",
   "status": "partial",
   "theorems": [
    "QED.C72_starts_iff_partial",
    "QED.C72_unchanged",
    "QED.C72_step_real",
    "QED.C72_refuted"
   ],
   "note": "False of the code for the end time, which is never checked (an end time of zero runs and replaces the results). Proved: beamOn goes ahead exactly when field, physics, beam and a non-zero time step are in place and the thread count is allowed; a call that does not run changes neither results nor settings."
  },
  {
   "property": "C73",
   "status": "partial",
   "theorems": [
    "QED.C73_content",
    "QED.C73_shape_partial",
    "QED.C73_zero_threads",
    "QED.C73_refuted"
   ],
   "note": "Proved for every number of threads and distribution of events: one row per particle, complete rows. The row counts of the getters are 32-bit, so the shape theorem assumes fewer than 2^31 particles of a species; a negative number of events is refuted (beamOn(-1, 1) runs 2^32-1 events and reports -1 rows)."
  },
  {
   "property": "C74",
   "status": "proved",
   "theorems": [
    "QED.C74_round_trip",
    "QED.C74_relations",
    "QED.C74_velocity",
    "QED.C74_force",
    "QED.C74_schwinger",
    "QED.C74_pi",
    "QED.C74_position",
    "QED.C74_energy"
   ],
   "note": "Proved over the reals: round trips of every reference value, relations between them, velocity and Lorentz force in reference units equal the SI ones, and API-level round trips of position and energy through setGenerator and getInput. Rounding is not covered."
  },
  {
   "property": "C75",
   "status": "proved",
   "theorems": [
    "QED.C75_request",
    "QED.C75_valid",
    "QED.C75_valid_ieee"
   ],
   "note": "Proved for the reals and for extended reals with infinities and NaN."
  },
  {
   "property": "C76",
   "status": "proved",
   "theorems": [
    "QED.C76_fired",
    "QED.C76_safe",
    "QED.C76_complete"
   ],
   "note": "Proved for every source with fewer than 2^32 primaries (the type of the counter) and every number of calls."
  },
  {
   "property": "C77",
   "status": "partial",
   "theorems": [
    "QED.C77_calls_partial",
    "QED.C77_refuted"
   ],
   "note": "False: no history exists after which the process can be destroyed without undefined behaviour; after a field was set and a PostStepDoIt was made it is a double free. Proved: exactly which histories get as far as the destructor, and that each internal particle is freed once before it."
  },
  {
   "property": "C78",
   "status": "partial",
   "theorems": [
    "QED.C78_plane_partial",
    "QED.C78_pulses_refuted",
    "QED.C78_refuted"
   ],
   "note": "False for the Gaussian and focusing lasers: their phase does not contain the time, so at a fixed point the field never changes sign (proved for all parameters). Proved for the plane laser."
  },
  {
   "property": "C79",
   "status": "proved",
   "theorems": [
    "QED.C79_parameters"
   ],
   "note": "Vectors in the form of three numbers separated by single spaces (other forms: C64, C65). Histogram limits are read in internal units, see HistogramIs."
  },
  {
   "property": "C80",
   "status": "partial",
   "theorems": [
    "QED.C80_histogram_refuted",
    "QED.C80_tracks_refuted"
   ],
   "note": "False: output of a histogram throws in every state; output of tracks returns only if there are none."
  },
  {
   "property": "C81",
   "status": "partial",
   "theorems": [
    "QED.C81_leak_partial",
    "QED.C81_refuted"
   ],
   "note": "False of the code: the processes are never deleted. Proved: the number of objects left after destruction is exactly the number of processes created."
  },
  {
   "property": "C82",
   "status": "partial",
   "theorems": [
    "QED.C82_definition_partial",
    "QED.C82_total_energy",
    "QED.C82_exact_partial",
    "QED.C82_refuted"
   ],
   "note": "False: consumed photons are fired too, and the energy given is the total energy. Proved: the exact condition under which the claim holds; species and direction are always right."
  },
  {
   "property": "C83",
   "status": "partial",
   "theorems": [
    "QED.C83_field_free",
    "QED.C83_refuted",
    "QED.C83_direction_partial",
    "QED.C83_ends"
   ],
   "note": "False for every lepton: the kinetic energy is used as the momentum and the total energy is proposed as kinetic energy, so it comes out as sqrt(m^2+T^2). Proved: direction kept, no secondaries, the loop ends."
  },
  {
   "property": "C84",
   "status": "partial",
   "theorems": [
    "QED.C84_outside",
    "QED.C84_once_iff_partial",
    "QED.C84_two_steps_partial",
    "QED.C84_refuted"
   ],
   "note": "False: the process acts on every other step inside the field, and the switch is shared between tracks. Proved: the exact condition on the numbers of steps."
  },
  {
   "property": "C85",
   "status": "partial",
   "theorems": [
    "QED.C85_refuted",
    "QED.C85_copies",
    "QED.C85_energy_iff_partial",
    "QED.C85_count_partial",
    "QED.C85_out_of_range"
   ],
   "note": "False: the photon sample is never used; all photons of a crossing are copies made from the electron sample, with the square of the momentum as energy; a photon model with fewer components than the electron model is read out of range. Proved: the number of photons and safety when the models have as many components."
  },
  {
   "property": "C86",
   "status": "proved",
   "theorems": [
    "QED.C86_emission",
    "QED.C86_pairs",
    "QED.C86_emission_safe",
    "QED.C86_pairs_safe"
   ],
   "note": "Complete files are described by Spec/TableFiles (numerals with any white space between). C86_emission_safe and C86_pairs_safe connect the loaded tables with C39's GoodTables."
  },
  {
   "property": "C87",
   "status": "partial",
   "theorems": [
    "QED.C87_eta",
    "QED.C87_row",
    "QED.C87_span_iff_partial",
    "QED.C87_refuted",
    "QED.C87_loaded"
   ],
   "note": "C87_eta and C87_row give the axes. The property is false: the chi spacing divides by the number of rows, so it holds for a row exactly if there are as many columns as rows (C87_span_iff_partial); C87_refuted is a 2 by 3 table."
  },
  {
   "property": "C88",
   "status": "partial",
   "theorems": [
    "QED.C88_missing_file_partial",
    "QED.C88_unset_refuted",
    "QED.C88_short_refuted",
    "QED.C88_unwritten_refuted"
   ],
   "note": "False: an unset variable makes a string from a null pointer (C88_unset_refuted), a short pair table is filled up with its last pair (C88_short_refuted) and missing entries of the energy table stay unwritten (C88_unwritten_refuted). Proved: the program exits exactly when a file is missing."
  },
  {
   "property": "C89",
   "status": "proved",
   "theorems": [
    "QED.C89_emission",
    "QED.C89_pairs"
   ],
   "note": "For every table size, loading makes and unloading frees the same arrays."
  },
  {
   "property": "C90",
   "status": "partial",
   "theorems": [
    "QED.C90_plain_partial",
    "QED.C90_negative_refuted",
    "QED.C90_leading_zero_refuted",
    "QED.C90_exponent_refuted"
   ],
   "note": "False of negative counts (C90_negative_refuted), numerals with a leading zero (octal, C90_leading_zero_refuted) and numerals with an exponent (C90_exponent_refuted). Plain decimal numerals below 2^32 are taken at their value (C90_plain_partial)."
  },
  {
   "property": "C91",
   "status": "proved",
   "theorems": [
    "QED.C91_loop",
    "QED.C91_source",
    "QED.C91_sources",
    "QED.C91_histograms",
    "QED.C91_gaussian_energy",
    "QED.C91_histogram"
   ],
   "note": "C91_loop, C91_source, C91_gaussian_energy and C91_histogram, over the reals. Other energy distributions are treated in C20."
  },
  {
   "property": "C92",
   "status": "partial",
   "theorems": [
    "QED.C92_track_partial",
    "QED.C92_history",
    "QED.C92_histogram",
    "QED.C92_field_partial",
    "QED.C92_properties",
    "QED.C92_tracks_kept",
    "QED.C92_gamma_refuted"
   ],
   "note": "About the code after AddGroup, for a file that has the group; by C54/C80 the code as a whole never gets there. C92_gamma_refuted: Lorentz factors of tracks are multiplied by the time unit. Grids above 2^32 points are excluded (C58_refuted)."
  },
  {
   "property": "C93",
   "status": "partial",
   "theorems": [
    "QED.C93_refuted",
    "QED.C93_normal_end_partial"
   ],
   "note": "False of every input that asks for output: no such run ends normally, because AddGroup never makes a group (C54). C93_normal_end_partial: a run that ends normally had nothing to save and leaves an empty file."
  },
  {
   "property": "C94",
   "status": "partial",
   "theorems": [
    "QED.C94_undefined_iff_partial",
    "QED.C94_refuted"
   ],
   "note": "Exact condition (C94_undefined_iff_partial): with tables of consistent sizes there is undefined behaviour if and only if a source that is not Gaussian has a spread below its mean energy (std::uniform_real_distribution with the limits the wrong way round). C94_refuted: a file that gives a source's mean energy and neither distribution nor spread is enough. Single-threaded build without MPI; the threads are in C57."
  },
  {
   "property": "C95",
   "status": "partial",
   "theorems": [
    "QED.C95_ends_partial",
    "QED.C95_refuted",
    "QED.C95_photons_partial"
   ],
   "note": "False for time steps that are zero or negative, which no check rejects: a photon is then followed forever (C95_refuted). Proved for positive time steps or a non-positive end time in exact arithmetic (C95_ends_partial); C95_photons_partial gives a class of runs that end normally."
  },
  {
   "property": "C96",
   "status": "partial",
   "theorems": [
    "QED.C96_near_partial",
    "QED.C96_exact_partial",
    "QED.C96_ends_partial",
    "QED.C96_stuck_refuted",
    "QED.C96_extra_step_refuted",
    "QED.C96_program_partial"
   ],
   "note": "In IEEE doubles the number of steps is exact when the clock needs no rounding (C96_exact_partial); with rounding, up to 2^26 steps, it is right up to one step and the clock is off by at most n^2 units in the last place of the step, less than half a step (C96_near_partial); every event ends if the end time is at most 2^51 steps (C96_ends_partial, C96_program_partial for the whole program). False in general: with a step of 0.1 and an end time of 1 there are 11 steps instead of 10 (C96_extra_step_refuted), and with a step of 1 and an end time of 2^54 the clock sticks at 2^53 and no event ever runs to its end (C96_stuck_refuted)."
  },
  {
   "property": "C97",
   "status": "partial",
   "theorems": [
    "QED.C97_counts",
    "QED.C97_exact",
    "QED.C97_nearest",
    "QED.C97_one_bin",
    "QED.C97_ranks",
    "QED.C97_refuted"
   ],
   "note": "Counts are exact up to 2^53 particles per bin, more than an event can hold (C97_counts, C97_exact), the bin is the nearest one by rounded distance (C97_nearest) and unique (C97_one_bin), and sums over ranks are exact whatever the schedule (C97_ranks). Beyond 2^53 counts are lost (C97_refuted). Ranges of magnitude above 2^900 are not covered."
  },
  {
   "property": "C98",
   "status": "proved",
   "theorems": [
    "QED.C98_emission",
    "QED.C98_pairs",
    "QED.C98_loaded",
    "QED.C98_good",
    "QED.C98_program"
   ],
   "note": "About the seven files in Tables, as they are at the pinned commit (Verif/Data, compared with the files byte by byte by tools/tables-check.sh). C98_program is C94 for them."
  },
  {
   "property": "C99",
   "status": "partial",
   "theorems": [
    "QED.C99_share_partial",
    "QED.C99_negative_refuted",
    "QED.C99_exit_refuted",
    "QED.C99_energy_refuted"
   ],
   "note": "C99_negative_refuted: for every chi between about 108.7 and 884 (log10 chi in (2.036, 2.946]) a draw of at most 0.0006 gives the positron a negative share, because the draw lies below the first entry of the row and Interpolate1D continues the first segment. C99_energy_refuted: photons of at least 20000 electron masses then convert into leptons with more energy than the photon had. C99_exit_refuted: above about 884 the program ends with code -1. C99_share_partial: for log10 chi in [-2.301, 1.9826) all shares lie in (0, 1.0000000000000007]. Missing: chi below the table, and chi between 96.1 and 108.7, where the two neighbouring rows differ."
  },
  {
   "property": "C100",
   "status": "proved",
   "theorems": [
    "QED.C100_energy"
   ],
   "note": "For exact arithmetic on the numbers in the files. Eta of at least 10^-400 covers every positive double."
  },
  {
   "property": "C101",
   "status": "partial",
   "theorems": [
    "QED.C101_pairs_partial",
    "QED.C101_pairs_between",
    "QED.C101_emission_partial",
    "QED.C101_emission_between",
    "QED.C101_last_refuted",
    "QED.C101_shipped_emission_partial",
    "QED.C101_shipped_partial"
   ],
   "note": "Proved for every tabulated chi and eta except the last one, and between tabulated values, over the real numbers and with the shipped tables. C101_last_refuted: at the last tabulated value nothing is sampled; ClosestPoints ends the program there (C08)."
  },
  {
   "property": "C102",
   "status": "partial",
   "theorems": [
    "QED.C102_push_eta",
    "QED.C102_eta_partial",
    "QED.C102_chi_partial",
    "QED.C102_frames_eta_partial",
    "QED.C102_frames_chi_partial",
    "QED.C102_rest_refuted"
   ],
   "note": "Proved for every particle that moves, with the field tensor and Lorentz transformations as in textbooks. C102_rest_refuted: at rest the direction is 0/0, so eta is NaN in any field, although the invariant is the electric field strength."
  },
  {
   "property": "C103",
   "status": "proved",
   "theorems": [
    "QED.C103_lorentz",
    "QED.C103_reaction",
    "QED.C103_step",
    "QED.C103_pushes",
    "QED.C103_cubic"
   ],
   "note": "Over the real numbers. C103_step holds for any force; C103_reaction is stated for momenta that are not zero, because the code divides by their length."
  },
  {
   "property": "C104",
   "status": "proved",
   "theorems": [
    "QED.C104_converges",
    "QED.C104_limit",
    "QED.C104_static",
    "QED.C104_plane"
   ],
   "note": "Over the real numbers, for the Lorentz pusher. The bound here is of first order in the step and needs only Lipschitz fields; the fourth order, also for the Landau pushers, is C121."
  },
  {
   "property": "C105",
   "status": "proved",
   "theorems": [
    "QED.C105_emission",
    "QED.C105_emission_step",
    "QED.C105_emission_undisturbed",
    "QED.C105_conversion",
    "QED.C105_conversion_step",
    "QED.C105_static"
   ],
   "note": "Over the real numbers, for an event with a single initial particle and the draw of its creation; stochastic emission with or without pair production for leptons, pair production with any emission process for photons. The increments use the rate at the end of each push, as the code does."
  },
  {
   "property": "C106",
   "status": "partial",
   "theorems": [
    "QED.C106_bounds_partial",
    "QED.C106_no_overlap_partial",
    "QED.C106_iff_partial",
    "QED.C106_race_iff",
    "QED.C106_refuted"
   ],
   "note": "False of the code: entry counter and bins are plain shared variables. Proved for all schedules: adding never fails and can always be finished; no bin ever holds too much, and a bin with at least one particle holds at least one; a bin is exact under every schedule if and only if at most one thread has particles for it; without overlapping calls the histogram equals a sequential one; there is a data race exactly when two threads add particles. Model: sequentially consistent micro-steps; which particles a thread adds is fixed beforehand."
  },
  {
   "property": "C107",
   "status": "partial",
   "theorems": [
    "QED.C107_range_partial",
    "QED.C107_iff_partial",
    "QED.C107_copies_refuted",
    "QED.C107_race_iff",
    "QED.C107_refuted"
   ],
   "note": "False of the code: the generator is one unlocked object. Proved for all schedules: draws can always be finished, and use only as many elements of the sequence as there are draws; all draws differ under every schedule if and only if at most one thread draws; a data race exists exactly in the other case; two threads can get exactly the same numbers throughout, so that two events are copies of each other. Model: a draw is one read and one write of the generator's position."
  },
  {
   "property": "C108",
   "status": "proved",
   "theorems": [
    "QED.C108_event",
    "QED.C108_event_only",
    "QED.C108_abort",
    "QED.C108_scalars",
    "QED.C108_orthogonal",
    "QED.C108_static",
    "QED.C108_plane",
    "QED.C108_polarisation_is_no_turn"
   ],
   "note": "Real arithmetic. Covers the event loop from the generated list to the filled histograms for the three pushers, all processes and any field described with the new axes; the source generator and the input file's field parameters are not covered: turning a plane wave by its polarisation angle is not turning the wave (C108_polarisation_is_no_turn). Where a direction is divided by a zero length the real quotient is 0 in the model on both sides."
  },
  {
   "property": "C109",
   "status": "partial",
   "theorems": [
    "QED.C109_event_partial",
    "QED.C109_abort_partial",
    "QED.C109_image",
    "QED.C109_pairs_partial",
    "QED.C109_refuted"
   ],
   "note": "Proved in both directions for events with any of the pushers and radiation processes, in every arithmetic with exact signs: real numbers, real numbers with infinities, and bit for bit in double precision. Pair production is insensitive to the sign of the fields, but with the same draws it gives the same pair and not the exchanged one, so the property fails for single events with pair production; whether it holds in distribution depends on the symmetry of the table of shares and is not proved."
  },
  {
   "property": "C110",
   "status": "proved",
   "theorems": [
    "QED.C110_run",
    "QED.C110_abort",
    "QED.C110_event",
    "QED.C110_end_times"
   ],
   "note": "Holds in any arithmetic; the condition is that every time before the first end is before the second."
  },
  {
   "property": "C111",
   "status": "partial",
   "theorems": [
    "QED.C111_split_partial",
    "QED.C111_merge_partial",
    "QED.C111_no_processes",
    "QED.C111_refuted"
   ],
   "note": "Proved in both directions as long as the particle list does not fill up. A full list drops secondaries of whichever particle comes later, so there the claim is false (refuted with a witness)."
  },
  {
   "property": "C112",
   "status": "partial",
   "theorems": [
    "QED.C112_work_partial",
    "QED.C112_magnetic_partial",
    "QED.C112_static_partial",
    "QED.C112_parallel",
    "QED.C112_refuted",
    "QED.C112_fourth_partial"
   ],
   "note": "Real arithmetic. Exact conservation is false (C112_refuted: one large step in a uniform magnetic field raises the energy). Proved: the energy is off by at most an explicit constant times the time step, in every smooth field with a potential, and by a constant times its fourth power if the field has four continuous derivatives (C112_fourth_partial); the momentum along a uniform magnetic field is exact."
  },
  {
   "property": "C113",
   "status": "proved",
   "theorems": [
    "QED.C113_law",
    "QED.C113_moments",
    "QED.C113_total",
    "QED.C113_nan_iff"
   ],
   "note": "Proved for the model of the decompositions (Cholesky factor if there is one, orthonormal eigenvectors otherwise) over the real numbers: C113_law, C113_moments, C113_total, C113_nan_iff."
  },
  {
   "property": "C114",
   "status": "partial",
   "theorems": [
    "QED.C114_law",
    "QED.C114_iff_partial",
    "QED.C114_refuted"
   ],
   "note": "False. The variable that is made skew is not a standard normal one: it already has the mean of the component and the square root of its width. C114_refuted: without skew the samples have mean m(1 + s) and variance s^3 instead of m and s^2. C114_law gives the actual distribution, C114_iff_partial says for which parameters it is the right one (width zero, or mean zero and width one)."
  },
  {
   "property": "C115",
   "status": "partial",
   "theorems": [
    "QED.C115_models_partial",
    "QED.C115_refuted",
    "QED.C115_complete_partial"
   ],
   "note": "False. Missing models are reported by an exception (C115_models_partial), but missing or short files of numbers are not: loading succeeds and the crossings use indeterminate values (C115_refuted). With complete files crossings are as described (C115_complete_partial)."
  },
  {
   "property": "C116",
   "status": "partial",
   "theorems": [
    "QED.C116_refuted",
    "QED.C116_leak",
    "QED.C116_calls_partial"
   ],
   "note": "False. The destructor deletes a pointer that nothing ever sets, after every history (C116_refuted), and models and sessions are never freed (C116_leak). C116_calls_partial: until then every history in which models are loaded first is defined."
  },
  {
   "property": "C117",
   "status": "partial",
   "theorems": [
    "QED.C117_refuted",
    "QED.C117_direction_partial"
   ],
   "note": "False. The total energy is proposed where Geant4 expects the kinetic energy, for every crossing (C117_refuted); the direction is right (C117_direction_partial)."
  },
  {
   "property": "C118",
   "status": "proved",
   "theorems": [
    "QED.C118_mean",
    "QED.C118_law",
    "QED.C118_total",
    "QED.C118_none",
    "QED.C118_next",
    "QED.C118_state",
    "QED.C118_measure"
   ],
   "note": "C118_law: the probability of every set of histories, C118_mean: the mean of every quantity determined by the history. C118_next spells out the lack of memory, C118_none agrees with C105, C118_state says which state a history leads to, C118_total that no step fails. Stochastic emission is the only process, so that photons draw nothing; with pair production the particles of an event are separated by C111."
  },
  {
   "property": "C119",
   "status": "partial",
   "theorems": [
    "QED.C119_static_scale",
    "QED.C119_static_iff",
    "QED.C119_static_refuted",
    "QED.C119_plane_partial",
    "QED.C119_gauss_scale",
    "QED.C119_gauss_refuted",
    "QED.C119_position"
   ],
   "note": "Proved for plane lasers (C119_plane_partial). False for static fields, which are used as multiples of the Schwinger field (C119_static_scale, C119_static_iff, C119_static_refuted), and for the start and focus of a Gaussian pulse, which are used as multiples of the internal unit of length, so that the pulse passes long before light from its start point could (C119_gauss_scale, C119_gauss_refuted)."
  },
  {
   "property": "C120",
   "status": "partial",
   "theorems": [
    "QED.C120_static",
    "QED.C120_plane_iff",
    "QED.C120_plane_partial",
    "QED.C120_plane_refuted",
    "QED.C120_gauss_refuted",
    "QED.C120_focusing_refuted"
   ],
   "note": "True of static fields (C120_static) and of plane lasers exactly when the polarisation angle is a multiple of pi (C120_plane_iff, C120_plane_partial, C120_plane_refuted). False of every Gaussian laser along z (C120_gauss_refuted) and of every focusing laser along z with polarisation angle 0 (C120_focusing_refuted): their carrier does not depend on time (see C78)."
  },
  {
   "property": "C121",
   "status": "partial",
   "theorems": [
    "QED.C121_lorentz",
    "QED.C121_landau",
    "QED.C121_modified",
    "QED.C121_static",
    "QED.C121_plane",
    "QED.C121_gauss_partial",
    "QED.C121_gauss_focus_partial",
    "QED.C121_focusing_partial",
    "QED.C121_gauss",
    "QED.C121_focusing_focus_partial",
    "QED.C121_cut_refuted"
   ],
   "note": "Proved for all three pushers near solutions along which the fields have four continuous derivatives (for the Landau pushers also while the momentum, for the modified one eta, does not vanish). Static fields and plane waves qualify everywhere. In the focal plane z = -1e-99 of the pulses the code divides by zero; in arithmetic with infinities the wave fronts are then flat, and C121_gauss proves the order of the Lorentz pusher through the focus of the Gaussian pulse. The focused pulse qualifies off the surface at which the code cuts it to zero; C121_cut_refuted shows that there the error is of first order in the step."
  },
  {
   "property": "C122",
   "status": "partial",
   "theorems": [
    "QED.C122_read",
    "QED.C122_setup",
    "QED.C122_steps",
    "QED.C122_histograms",
    "QED.C122_collision",
    "QED.C122_beam",
    "QED.C122_refuted"
   ],
   "note": "False in its last part: with the shipped tables every run of the example ends with an error code or an uncaught exception, so nothing is saved (C122_refuted, from C93). The rest holds: C122_read, C122_setup, C122_steps, C122_histograms, C122_collision and C122_beam. Steps and histograms are those of events that run to their end. Numbers are exact reals."
  },
  {
   "property": "C123",
   "status": "partial",
   "theorems": [
    "QED.C123_undefined_iff_partial",
    "QED.C123_ends_partial",
    "QED.C123_refuted",
    "QED.C123_exit_refuted"
   ],
   "note": "False of negative time steps: a beam of photons is then simulated for ever (C123_refuted). False of unknown particle names: exit(-1) ends the interpreter (C123_exit_refuted). C123_undefined_iff_partial says exactly when a call is undefined, given loaded tables and thread numbers in range: an earlier double free (C70) or energies in the wrong order. C123_ends_partial: with a positive step every call ends. Events run one after the other; threads that run at the same time are in C57. Over the real numbers."
  },
  {
   "property": "C124",
   "status": "partial",
   "theorems": [
    "QED.C124_setup",
    "QED.C124_steps",
    "QED.C124_collision",
    "QED.C124_refuted",
    "QED.C124_runs_partial",
    "QED.C124_beam",
    "QED.C124_motion",
    "QED.C124_completes_partial",
    "QED.C124_finals",
    "QED.C124_arrays",
    "QED.C124_race_refuted",
    "QED.C124_shipped_partial"
   ],
   "note": "Proved for the calls of the script on a new run manager: the settings that reach the simulation, 2000 steps per event, the pulse and its collision with the beam, the primaries, the paths of the electrons and the shape and contents of the four arrays. The script declines to run in a build without OpenMP because it asks for two threads (C124_refuted), and its two threads race for the samples of the beam (C124_race_refuted). C124_runs_partial: with OpenMP it ends with results or with exit(-1); C124_completes_partial: with results whenever the tables reach up to the quantum parameter along the paths of the electrons; C124_shipped_partial: with results with the shipped tables, unless a sample of the energy is more than 40 standard deviations from the mean. The standard deviations of zero that the script passes for the radius, duration and divergence of the beam violate the precondition of std::normal_distribution, which the model does not enforce."
  },
  {
   "property": "C125",
   "status": "partial",
   "theorems": [
    "QED.C125_path",
    "QED.C125_law",
    "QED.C125_mean_partial",
    "QED.C125_unbiased_partial",
    "QED.C125_number_partial",
    "QED.C125_capacity_refuted",
    "QED.C125_tables_iff"
   ],
   "note": "C125_law is the complete law of the photons after n steps of an event with a single lepton, including a full list; C125_path says that the lepton's path is independent of the draws. C125_mean_partial, C125_unbiased_partial and C125_number_partial assume that the list has room for one photon per step. C125_capacity_refuted: with the sample fraction 1 the radiation of all steps after the list is full is missing. C125_tables_iff says when the lookups succeed."
  },
  {
   "property": "C126",
   "status": "partial",
   "theorems": [
    "QED.C126_lorentz",
    "QED.C126_reaction_partial",
    "QED.C126_bound_partial",
    "QED.C126_eta",
    "QED.C126_refuted"
   ],
   "note": "C126_lorentz: without radiation reaction, for every time step. C126_eta: the quantum parameter. With radiation reaction C126_reaction_partial needs that the forces change the momentum by at most half in each step, C126_bound_partial a condition on the start only and gives the bound up to six times what the forces add to a slow particle in a step. C126_refuted: with a time step that is too long the reaction alone turns an electron around and leaves it with many times the momentum the fields could give."
  },
  {
   "property": "C127",
   "status": "partial",
   "theorems": [
    "QED.C127_emission_refuted",
    "QED.C127_emission_partial",
    "QED.C127_conversion_refuted",
    "QED.C127_event_partial"
   ],
   "note": "False of every emission: the photon's momentum is taken from the lepton and the energies after it exceed the energy before by the difference of 1/(E+p) of the lepton after and before (C127_emission_refuted). Every conversion keeps the energy and loses momentum (C127_conversion_refuted). What holds: an emission gains at most sqrt(2) rest energies if the photon has no more energy than the lepton (C127_emission_partial; with the shipped tables C100 gives that), and over an event with the Lorentz pusher and stochastic emission the energy of all particles is at most that at the start, the charge times the field strength times the elapsed time of each particle, and sqrt(2)/2 per draw (C127_event_partial). Missing: pair creation and radiation reaction pushers in the event theorem."
  },
  {
   "property": "C128",
   "status": "partial",
   "theorems": [
    "QED.C128_union_partial",
    "QED.C128_refuted"
   ],
   "note": "False of every run with at least two processes: each process simulates all events of the file, so with one source of N particles the table of primaries has n*N rows and n of them carry each event number (C128_refuted, for every schedule). What holds (C128_union_partial): for every input and every number of processes the run is finite, never stuck and ends with the tables of all processes in rank order and the sums of their histograms; on every process every source has its configured number of events. The writing of the file is abstract, see C54. The processes' random numbers are arbitrary."
  },
  {
   "property": "C129",
   "status": "partial",
   "theorems": [
    "QED.C129_python_displaced",
    "QED.C129_python_partial",
    "QED.C129_file_displaced",
    "QED.C129_refuted"
   ],
   "note": "Exact: the field strength in SI units is that of the pulse asked for, displaced by minus the focus, at every place and time, for input files (C129_file_displaced) and every history of Python calls (C129_python_displaced); so it is the pulse asked for when the focus is the origin (C129_python_partial). False for every other focus: when light from the start reaches the focus, the field there is below the peak (C129_refuted). The phase has no time in it (C78), and the radius of curvature carries the shift of 1e-99 of the code. Directions within 1e-5 of -z are left out (C25)."
  },
  {
   "property": "C130",
   "status": "partial",
   "theorems": [
    "QED.C130_bunch",
    "QED.C130_asked_iff",
    "QED.C130_along_z_partial",
    "QED.C130_refuted",
    "QED.C130_turn",
    "QED.C130_backwards"
   ],
   "note": "False off axis: the whole bunch, places and momenta, is laid about the direction mirrored in z (see C18), so a bunch asked for off axis has its length along another line and flies along another line. Proved: the exact joint law for every configuration (normal places, normal angles, uniform azimuths to twelve digits of pi, spectrum), that it is the bunch asked for exactly for directions along +z or -z, and that any divergence or any width of a Gaussian spectrum gives every particle a positive chance to fly backwards (the sampled energy is used as a signed momentum). The energies here are sizes of momentum: see C19."
  },
  {
   "property": "C131",
   "status": "partial",
   "theorems": [
    "QED.C131_velocity_partial",
    "QED.C131_push_partial",
    "QED.C131_pushes_partial",
    "QED.C131_overtakes",
    "QED.C131_refuted",
    "QED.C131_beta_partial",
    "QED.C131_beta_refuted"
   ],
   "note": "False of the code: rounding lets a free electron with momentum (15, 8, 0)*2^30 m c move by more than 6 in a step of 6 (C131_overtakes, C131_refuted), and every lepton with a momentum of at least 2^28 m c reports a speed of exactly 1 (C131_beta_refuted). Proved: whenever the coordinates stay finite, for every force law and field, the velocity is at most 1 + 12/2^53 (C131_velocity_partial), a push moves a lepton by at most (1 + 2^-47) dt plus the rounding of the coordinates themselves (C131_push_partial), n pushes by n times that (C131_pushes_partial), and the reported speed is in [0, 1] (C131_beta_partial). The mass of every lepton of the program is 1, as these theorems assume."
  },
  {
   "property": "C132",
   "status": "partial",
   "theorems": [
    "QED.C132_joined_partial",
    "QED.C132_white_space",
    "QED.C132_refuted"
   ],
   "note": "Proved for lines up to 199 characters and names up to 49. False beyond: a line that continues the value of a name of 50 characters or more is stored under the name cut to 49 characters."
  },
  {
   "property": "C133",
   "status": "proved",
   "theorems": [
    "QED.C133_emission",
    "QED.C133_conversion",
    "QED.C133_shipped"
   ],
   "note": "Proved for the Lorentz pusher and exact arithmetic. In the limit of small steps: C105 gives the chance for a given step. The rates are those of the tables read as curves of straight pieces."
  },
  {
   "property": "C134",
   "status": "proved",
   "theorems": [
    "QED.C134_same"
   ],
   "note": "For every arithmetic in which zero equals itself. The starting lepton is the one the process builds from the track, wrong energy included (C83)."
  },
  {
   "property": "C135",
   "status": "partial",
   "theorems": [
    "QED.C135_range_partial",
    "QED.C135_law_partial",
    "QED.C135_order",
    "QED.C135_many",
    "QED.C135_from_zero_partial",
    "QED.C135_refuted"
   ],
   "note": "Proved in exact arithmetic, and in double precision up to the closed end for ranges that start at zero. False in double precision: RandDouble(1, 2) returns 2 for the largest draw below 1."
  },
  {
   "property": "C136",
   "status": "partial",
   "theorems": [
    "QED.C136_error_partial",
    "QED.C136_moment_partial",
    "QED.C136_lost",
    "QED.C136_refuted"
   ],
   "note": "False of the code: an amount below 2^-54 of the depth is lost in the difference, so an electron in a weak field with a positive amount per step never radiates, however many steps (C136_refuted, C136_lost). Proved: while the depth is not negative it differs after n steps from the exact value by at most n*2^-53 of the first value (C136_error_partial), which bounds the moment of emission from both sides (C136_moment_partial)."
  },
  {
   "property": "C137",
   "status": "partial",
   "theorems": [
    "QED.C137_events_partial",
    "QED.C137_program_partial",
    "QED.C137_name_refuted",
    "QED.C137_fraction_refuted"
   ],
   "note": "False of the code for two kinds of settings: the documented physics name classical is refused by beamOn (C137_name_refuted), and a sample fraction outside [0,1] is used by the program but ignored by the Python interface (C137_fraction_refuted). Proved for all other settings that both can express with one beam and a gaussian or focusing field, without tracking, histograms and an energy threshold: the same events with the same final states (C137_events_partial), and the program ends normally exactly when beamOn does (C137_program_partial). Missing: several beams, tracks and histograms, which Python cannot ask for, and the other fields."
  },
  {
   "property": "C138",
   "status": "partial",
   "theorems": [
    "QED.C138_wave",
    "QED.C138_plane_partial",
    "QED.C138_refuted"
   ],
   "note": "False of the code for polarisation angles that are not multiples of pi (C138_refuted, for every such angle): the magnetic field of the plane laser is then not that of a wave along its direction, and a positron gains light-front momentum at any time step. Proved for every plane wave (C138_wave) and for the plane laser with angles that are multiples of pi (C138_plane_partial), except for directions within 1e-5 of -z."
  },
  {
   "property": "C139",
   "status": "partial",
   "theorems": [
    "QED.C139_energy_partial",
    "QED.C139_refuted"
   ],
   "note": "False of the code at every speed below that of light (C139_refuted, for every charge across every magnetic field): the reaction force has the size of the radiated power, so the power it takes from the charge is the radiated power times the speed. Proved (C139_energy_partial): the energy follows the closed-form solution for the force of the code, whose momentum falls as p/(1 + kappa p t), up to a constant times dt^4; at the speed of light this is the classical loss."
  },
  {
   "property": "C140",
   "status": "partial",
   "theorems": [
    "QED.C140_tracks_partial",
    "QED.C140_emission_partial",
    "QED.C140_conversion_partial",
    "QED.C140_refuted"
   ],
   "note": "False with radiation reaction (C140_refuted, both reaction pushers): the code adds a force of fixed size against the momentum in the frame of the simulation, and in a constant electric field the computed momenta of two frames do not come together. Proved for the Lorentz pusher: tracks of two frames differ by no more than a constant times the time steps (C140_tracks_partial); the chance of no emission and of no conversion have the same limit in both frames (C140_emission_partial, C140_conversion_partial) while eta and chi stay inside the table. Missing: tracks with the reaction pushers, where it is false."
  },
  {
   "property": "C141",
   "status": "proved",
   "theorems": [
    "QED.C141_event",
    "QED.C141_event_only",
    "QED.C141_abort",
    "QED.C141_scalars",
    "QED.C141_fields",
    "QED.C141_symmetric",
    "QED.C141_plane",
    "QED.C141_exchange_not_exact"
   ],
   "note": "Double precision with rounding, overflow and NaN (one zero, one NaN). All pushers, all processes including pairs, histograms, recorded tracks, aborts. C141_exchange_not_exact: exchanging two axes is not exact, a photon with momentum (3*2^24, 7/16, 7/16) has another energy when x and z are exchanged."
  },
  {
   "property": "C142",
   "status": "partial",
   "theorems": [
    "QED.C142_others_partial",
    "QED.C142_tracking",
    "QED.C142_tracking_abort",
    "QED.C142_same",
    "QED.C142_histograms",
    "QED.C142_histograms_partial",
    "QED.C142_histograms_refuted",
    "QED.C142_saving",
    "QED.C142_tables",
    "QED.C142_setup",
    "QED.C142_others_refuted",
    "QED.C142_program_refuted"
   ],
   "note": "Proved for the event loop in every arithmetic: tracking (C142_tracking, C142_tracking_abort, C142_tables, C142_setup), saving (C142_saving) and histograms with bins (C142_histograms, C142_histograms_partial) change nothing. False parts: a histogram without bins ends the program at the first particle of its species (C142_histograms_refuted); a histogram whose time has not come holds up those behind it in the file, so that they show another time (C142_others_refuted), while histograms in the order of their times and at least one step apart each show what they would show alone (C142_others_partial); adding a histogram to an input file on which the program ends normally makes it fail at the end, because its group is never created in the output file (C142_program_refuted)."
  },
  {
   "property": "C143",
   "status": "proved",
   "theorems": [
    "QED.C143_photon",
    "QED.C143_lepton",
    "QED.C143_reaction",
    "QED.C143_far",
    "QED.C143_tiny",
    "QED.C143_huge"
   ],
   "note": "Proved for photons with any pusher in any field (C143_photon) and for leptons without field with the Lorentz pusher (C143_lepton) and, unless they are at rest or almost, with the pushers with radiation reaction (C143_reaction; leptons at rest are the subject of C151). C143_far, C143_tiny and C143_huge show that the error in proportion to the distance and the bounds on the momentum cannot be left out."
  },
  {
   "property": "C144",
   "status": "proved",
   "theorems": [
    "QED.C144_run",
    "QED.C144_gamma",
    "QED.C144_static",
    "QED.C144_plane",
    "QED.C144_true"
   ],
   "note": "C144_run holds for any field whose computed value is within kappa of the real one; C144_static and C144_plane supply that for constant fields and plane waves with the parameters of the field as given numbers. C144_true turns such a bound into one against the true solution of the equations of motion. The focused pulses and the pushers with radiation reaction are not covered. sin and cos are taken as correctly rounded."
  },
  {
   "property": "C145",
   "status": "partial",
   "theorems": [
    "QED.C145_carried_partial",
    "QED.C145_reaction",
    "QED.C145_balance_iff",
    "QED.C145_classical_refuted",
    "QED.C145_semiclassical_refuted"
   ],
   "note": "False of the code: the tables and the pushers do not agree. In a classical run the chi axis is entered with exp of a decimal logarithm (about 0.028 of the momentum is missing); proved: at most 98 percent is carried, for every field. In a semiclassical run the interpolated tables give more than the Gaunt formula takes at eta = 10^(-5+2/33); proved: at least 100.2 percent. The exact law and an if-and-only-if criterion hold for all tables. Partial because runs that leave the tables or fill the particle list are excluded."
  },
  {
   "property": "C146",
   "status": "partial",
   "theorems": [
    "QED.C146_iff_partial",
    "QED.C146_hidden_refuted",
    "QED.C146_rejected",
    "QED.C146_refuted",
    "QED.C146_units_refuted"
   ],
   "note": "False of the code: the amplitude of a plane wave, the polarisation of a pulse, the energy distribution of a source and the quantity of a histogram are not written to the check file (C146_hidden_refuted for all files, C146_refuted for ten concrete ones), and numbers are shown in internal units. C146_iff_partial says that nothing else is missing. Values stand for what is printed of them; the program prints six digits, so the file tells less."
  },
  {
   "property": "C147",
   "status": "partial",
   "theorems": [
    "QED.C147_quantum_tables",
    "QED.C147_classical_tables",
    "QED.C147_spectrum",
    "QED.C147_capacity_refuted"
   ],
   "note": "False of a particle list of fixed size: C147_capacity_refuted shows that with every photon sampled the mean then goes to zero. C147_spectrum is the limit for a list that has room for a photon per step; C147_quantum_tables and C147_classical_tables show that the lookups of the code meet its hypotheses inside the tables. Smooth observables only: an observable that jumps, such as the count in a histogram bin, is not covered."
  },
  {
   "property": "C148",
   "status": "proved",
   "theorems": [
    "QED.C148_state",
    "QED.C148_law",
    "QED.C148_tables",
    "QED.C148_limit",
    "QED.C148_some"
   ],
   "note": "C148_state: one first emission or none. C148_law: its exact law at any step size. C148_limit and C148_some: the limit of small steps. C148_tables: the lookups of the code meet the hypotheses inside the tables. The lepton must not come to rest on the path and the quantum parameter must stay inside the tables; later emissions are covered at fixed step size by C118, not in the limit."
  },
  {
   "property": "C149",
   "status": "proved",
   "theorems": [
    "QED.C149_state",
    "QED.C149_law",
    "QED.C149_tables",
    "QED.C149_limit",
    "QED.C149_some"
   ],
   "note": "C149_state: one pair or none, and which. C149_law: the exact law at any step size. C149_limit and C149_some: the limit of small steps. C149_tables: the lookups of the code meet the hypotheses strictly inside the tables. The field is bounded and Lipschitz (static and plane fields are), and the quantum parameter stays inside the tables; photon emission by the pair afterwards is not part of the claim."
  },
  {
   "property": "C150",
   "status": "partial",
   "theorems": [
    "QED.C150_depends_partial",
    "QED.C150_line_refuted",
    "QED.C150_name_refuted",
    "QED.C150_number_refuted",
    "QED.C150_count_refuted",
    "QED.C150_switch_refuted"
   ],
   "note": "False of the code: the result of the INI parser (ParseError) is never asked for, unknown names are never looked at, and GetReal, GetInteger and GetBoolean fall back to their defaults. C150_line_refuted, C150_name_refuted, C150_number_refuted, C150_count_refuted and C150_switch_refuted each show for all files that the program does the same with and without the mistake; no message is printed either (console output is not modelled). C150_depends_partial: what the program does depends on the file only through the names and sections it knows. Which missing parts are reported is C66."
  },
  {
   "property": "C151",
   "status": "partial",
   "theorems": [
    "QED.C151_moving_partial",
    "QED.C151_reaction_refuted",
    "QED.C151_silent_refuted"
   ],
   "note": "False of the code. C151_reaction_refuted: with either radiation-reaction pusher a lepton at rest is lost at the first push, in any field, also in none. C151_silent_refuted: with quantum emission a lepton that still rests after the first time step never emits in the whole event. C151_moving_partial: for momenta from 2^-400 to 2^200 the quantum parameter and the optical depth stay numbers."
  },
  {
   "property": "C152",
   "status": "partial",
   "theorems": [
    "QED.C152_inside_partial",
    "QED.C152_depth_refuted",
    "QED.C152_never_refuted",
    "QED.C152_refuted",
    "QED.C152_gauss_refuted",
    "QED.C152_focusing_refuted"
   ],
   "note": "False of the code. C152_depth_refuted: with the shipped tables the pair process turns the optical depth of every photon without a field into NaN, and C152_never_refuted: such a photon never makes a pair again. C152_refuted: in a whole event a photon that is without a field after the first time step is only pushed. C152_gauss_refuted and C152_focusing_refuted: this is so for every photon 30 pulse lengths away from a Gaussian pulse, or where a focusing pulse is cut off. C152_inside_partial: in a field chi is a number and the optical depth stays one."
  },
  {
   "property": "C153",
   "status": "proved",
   "theorems": [
    "QED.C153_stochastic",
    "QED.C153_continuous",
    "QED.C153_focusing",
    "QED.C153_event",
    "QED.C153_draws",
    "QED.C153_gauss"
   ],
   "note": "Proved for the double-precision model. The lower bound 2^-400 on the momentum excludes leptons at rest, for which the direction is 0/0 (C151). Far from a Gaussian pulse the field is exactly zero unless it is NaN (C153_gauss), which is not covered here."
  },
  {
   "property": "C154",
   "status": "partial",
   "theorems": [
    "QED.C154_law",
    "QED.C154_partial",
    "QED.C154_refuted",
    "QED.C154_number",
    "QED.C154_number_refuted",
    "QED.C154_list_refuted"
   ],
   "note": "The claim as a user would expect it (the mean is the sum of the rates) is refuted for every lepton that can emit in its first step; the exact law, the two-sided bounds and the bound on the particle list are proved."
  },
  {
   "property": "C155",
   "status": "partial",
   "theorems": [
    "QED.C155_partial",
    "QED.C155_refuted",
    "QED.C155_likelihood_refuted",
    "QED.C155_rare_partial"
   ],
   "note": "Refuted for quantum emission with pair production: within one time step of any length the particle loop visits the particles it has just appended, so a single electron can fill a list of any capacity. The bound is proved for each process on its own; with both, a second generation from one lepton has a probability of at most the product of the two rates per step."
  },
  {
   "property": "C156",
   "status": "proved",
   "theorems": [
    "QED.C156_independent",
    "QED.C156_product",
    "QED.C156_alike",
    "QED.C156_repeated"
   ],
   "note": "Proved for every source, field, list of processes and number of earlier events, with a fuel bound on the time steps of an event; K random numbers are enough for all. The next event is taken without histograms (C142 shows that they change nothing). The samples of the source are drawn before the events and are fixed here."
  },
  {
   "property": "C157",
   "status": "proved",
   "theorems": [
    "QED.C157_fraction",
    "QED.C157_mean"
   ],
   "note": "Proved for primaries with equal samples (a source without spread); samples with spread are drawn beforehand and differ between events. The hypothesis that the two probabilities add up to 1 says that an event ends with probability 1."
  },
  {
   "property": "C158",
   "status": "proved",
   "theorems": [
    "QED.C158_arrangement"
   ],
   "note": ""
  },
  {
   "property": "C159",
   "status": "partial",
   "theorems": [
    "QED.C159_refuted",
    "QED.C159_place_refuted",
    "QED.C159_near_partial"
   ],
   "note": "False of every crossing: PostStepDoIt proposes neither a position nor a time, so the track and its photons continue from where and when the track entered, although the simulation has moved them. Proved: they are misplaced by at most the way of light in the time of the crossing."
  },
  {
   "property": "C160",
   "status": "proved",
   "theorems": [
    "QED.C160_emission",
    "QED.C160_pairs",
    "QED.C160_shipped",
    "QED.C160_others"
   ],
   "note": ""
  },
  {
   "property": "C161",
   "status": "proved",
   "theorems": [
    "QED.C161_events",
    "QED.C161_sources",
    "QED.C161_run"
   ],
   "note": ""
  },
  {
   "property": "C162",
   "status": "partial",
   "theorems": [
    "QED.C162_law_partial",
    "QED.C162_continuous_partial",
    "QED.C162_refuted"
   ],
   "note": "False with the same random numbers in quantum simulations: a photon above the threshold uses one or two random numbers that a photon below it does not, so the next emission of the lepton differs. Proved: the probability law of position and momentum is the same; in classical and semiclassical simulations the leptons are the same."
  },
  {
   "property": "C163",
   "status": "proved",
   "theorems": [
    "QED.C163_weak",
    "QED.C163_strong",
    "QED.C163_motion"
   ],
   "note": ""
  },
  {
   "property": "C164",
   "status": "partial",
   "theorems": [
    "QED.C164_announced_partial",
    "QED.C164_announced_refuted",
    "QED.C164_progress_partial",
    "QED.C164_negative_refuted",
    "QED.C164_schedule_refuted",
    "QED.C164_sources_refuted",
    "QED.C164_double_partial",
    "QED.C164_shown_partial",
    "QED.C164_shown_refuted"
   ],
   "note": "False in five ways: the announced number wraps at 2^32, the percentages are negative from 2^31 events on, above 100 for schedules that give thread 0 late events, restart with each source, and are shown as 100 from 99.5 on. Proved: the announced number is right exactly below 2^32 events, and within a source of fewer than 2^31 events under the block schedule the percentages are right for equally fast threads, lie in [0,100) and increase; in double precision they lie in [0,100) and never decrease; what is shown is off by at most half a per cent."
  },
  {
   "property": "C165",
   "status": "partial",
   "theorems": [
    "QED.C165_apart_partial",
    "QED.C165_refuted"
   ],
   "note": "False for times that are between one and two steps apart: C165_refuted gives a step of 0.1 and two times exactly one step apart, for which the second histogram is filled one step late in every event of five or more steps. Proved for times at least two steps apart. In exact arithmetic one step is enough (C41)."
  }
 ]
}