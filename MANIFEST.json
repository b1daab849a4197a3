{
 "claims": [
  {
   "property": "C01",
   "status": "proved",
   "theorems": [
    "PySC.C01_lists_stay_sorted",
    "PySC.C01_lists_of_new_object",
    "PySC.C01_bpms_union",
    "PySC.C01_cavities_union",
    "PySC.C01_magnets_union"
   ],
   "note": ""
  },
  {
   "property": "C02",
   "status": "proved",
   "theorems": [
    "PySC.C02_bpms_rejected",
    "PySC.C02_cavities_rejected",
    "PySC.C02_magnets_rejected",
    "PySC.C02_supports_rejected"
   ],
   "note": ""
  },
  {
   "property": "C03",
   "status": "proved",
   "theorems": [
    "PySC.C03_bpms",
    "PySC.C03_cavities",
    "PySC.C03_magnets",
    "PySC.C03_only_uncertainties_stored"
   ],
   "note": ""
  },
  {
   "property": "C04",
   "status": "proved",
   "theorems": [
    "PySC.C04_bpms_leave_lattice",
    "PySC.C04_cavities_leave_lattice",
    "PySC.C04_magnets_leave_lattice",
    "PySC.C04_update_magnets_reproduces",
    "PySC.C04_update_cavities_reproduces"
   ],
   "note": ""
  },
  {
   "property": "C05",
   "status": "proved",
   "theorems": [
    "PySC.C05_support_pairs",
    "PySC.C05_support_uncertainties_stored"
   ],
   "note": ""
  },
  {
   "property": "C06",
   "status": "partial",
   "theorems": [
    "PySC.C06_violated",
    "PySC.C06_support_uncertainties_partial"
   ],
   "note": "The code violates the property: C06_violated is a concrete sequence in which registering a plinth erases a girder uncertainty (register_supports resets SIG.Support[ind]). C06_support_uncertainties_partial proves what holds, for elements which are not an end of the new supports."
  },
  {
   "property": "C07",
   "status": "proved",
   "theorems": [
    "PySC.C07_design_never_modified"
   ],
   "note": "All modelled calls: registrations, multipoles, apply_errors, update_*, set-points, copies, verify_structure, switches, injection settings, beam and orbit correction functions."
  },
  {
   "property": "C08",
   "status": "partial",
   "theorems": [
    "PySC.C08_copy_partial",
    "PySC.C08_copy_of_history_partial",
    "PySC.C08_violated_design"
   ],
   "note": "Violated: line 954 fills IDEALRING of the copy with elements of RING. Proved: everything else is equal and the original stays."
  },
  {
   "property": "C09",
   "status": "proved",
   "theorems": [
    "PySC.C09_round_trip",
    "PySC.C09_exact_within_limits"
   ],
   "note": ""
  },
  {
   "property": "C10",
   "status": "proved",
   "theorems": [
    "PySC.C10_limits_through_every_history",
    "PySC.C10_addressed_within",
    "PySC.C10_order_zero_bypasses_limit"
   ],
   "note": "C10_order_zero_bypasses_limit records that set_magnet_setpoints(order=0) is not covered by the limit."
  },
  {
   "property": "C11",
   "status": "proved",
   "theorems": [
    "PySC.C11_correctors",
    "PySC.C11_correctors_nothing_else",
    "PySC.C11_magnets",
    "PySC.C11_magnets_nothing_else",
    "PySC.C11_magnets_rel_idempotent",
    "PySC.C11_cavities",
    "PySC.C11_cavities_nothing_else"
   ],
   "note": ""
  },
  {
   "property": "C12",
   "status": "proved",
   "theorems": [
    "PySC.C12_bad_requests_rejected",
    "PySC.C12_single_value_for_all",
    "PySC.C12_unknown_cavity_field_is_accepted",
    "PySC.C12_unknown_cavity_field_rejected_rel_add"
   ],
   "note": "C12_unknown_cavity_field_is_accepted records that an absolute request for an unknown cavity field is accepted."
  },
  {
   "property": "C13",
   "status": "proved",
   "theorems": [
    "PySC.C13_realised_field",
    "PySC.C13_all_magnets",
    "PySC.C13_nothing_else",
    "PySC.C13_excess_calibration_errors_create_field"
   ],
   "note": ""
  },
  {
   "property": "C14",
   "status": "proved",
   "theorems": [
    "PySC.C14_update_magnets_idempotent",
    "PySC.C14_update_cavities_idempotent"
   ],
   "note": ""
  },
  {
   "property": "C15",
   "status": "proved",
   "theorems": [
    "PySC.C15_skew_limit",
    "PySC.C15_exact_within_limit"
   ],
   "note": ""
  },
  {
   "property": "C16",
   "status": "partial",
   "theorems": [
    "PySC.C16_violated_integer_add_truncates",
    "PySC.C16_violated_integer_clipping",
    "PySC.C16_integer_requests_round_towards_zero",
    "PySC.C16_correctors_abs_partial",
    "PySC.C16_magnets_and_cavities_abs_partial",
    "PySC.C16_relative_integers_fail"
   ],
   "note": "The property as stated is violated by the code (negation proved by C16_violated_*): integer arrays truncate in set_cm_setpoints and raise in set_magnet_setpoints/set_cavity_setpoints. Proved for absolute requests within the limits."
  },
  {
   "property": "C17",
   "status": "proved",
   "theorems": [
    "PySC.C17_correctors_apply_all",
    "PySC.C17_correctors_accumulate",
    "PySC.C17_magnets_and_cavities_last_value"
   ],
   "note": ""
  },
  {
   "property": "C18",
   "status": "proved",
   "theorems": [
    "PySC.C18_compensating_kick",
    "PySC.C18_others_untouched",
    "PySC.C18_going_back",
    "PySC.C18_skew_request_moves_corrector"
   ],
   "note": "C18_skew_request_moves_corrector records that the compensation is also applied to skew requests."
  },
  {
   "property": "C19",
   "status": "proved",
   "theorems": [
    "PySC.C19_forth_and_back",
    "PySC.C19_clipped_step_is_not_undone",
    "PySC.C19_no_trace"
   ],
   "note": ""
  },
  {
   "property": "C20",
   "status": "proved",
   "theorems": [
    "PySC.C20_randnc",
    "PySC.C20_randnc_terminates",
    "PySC.C20_randnc_zero_cutoff",
    "PySC.C20_errors_truncated",
    "PySC.C20_nothing_else",
    "PySC.C20_support_rolls"
   ],
   "note": "randnc with its termination and non-termination; errors of cavities, BPMs, magnets, rolls of supports; frame. End offsets of supports: C28."
  },
  {
   "property": "C21",
   "status": "proved",
   "theorems": [
    "PySC.C21_injection_errors"
   ],
   "note": ""
  },
  {
   "property": "C22",
   "status": "proved",
   "theorems": [
    "PySC.C22_scale_circumference",
    "PySC.C22_unknown_mode",
    "PySC.C22_circumference_error"
   ],
   "note": ""
  },
  {
   "property": "C23",
   "status": "proved",
   "theorems": [
    "PySC.C23_perfect_machine",
    "PySC.C23_zero_uncertainty_zero_error",
    "PySC.C23_no_transformations"
   ],
   "note": "C23_perfect_machine: for every machine without errors and with zero (or no) uncertainties, every successful apply_errors gives fields, cavity settings, lengths, injection and BPM errors as designed, supports without offsets and rolls, and the coordinate transformation belonging to zero offsets and angles. That this transformation is the identity is part of C30."
  },
  {
   "property": "C24",
   "status": "partial",
   "theorems": [
    "PySC.C24_errors_replaced_partial",
    "PySC.C24_violated_raises",
    "PySC.C24_violated_accumulates",
    "PySC.C24_violated_circumference"
   ],
   "note": "Proved for cavities, BPMs, magnets and injection (any number of calls). Violated for supports (second call raises, or offsets accumulate) and for the circumference: C24_violated_*."
  },
  {
   "property": "C25",
   "status": "proved",
   "theorems": [
    "PySC.C25_offsets_are_displacements",
    "PySC.C25_straight_line",
    "PySC.C25_straight_line_plinth",
    "PySC.C25_straight_line_section",
    "PySC.C25_ends",
    "PySC.C25_outside",
    "PySC.C25_parallel_shift"
   ],
   "note": ""
  },
  {
   "property": "C26",
   "status": "partial",
   "theorems": [
    "PySC.C26_offsets_across_origin",
    "PySC.C26_rolls_partial",
    "PySC.C26_rolls_without_wrap_partial",
    "PySC.C26_violated"
   ],
   "note": "Offsets proved; violated for rolls (C26_violated): the roll of a support across the origin is given to the whole ring (C26_rolls_partial says exactly what happens)."
  },
  {
   "property": "C27",
   "status": "partial",
   "theorems": [
    "PySC.C27_pitch_and_yaw_partial",
    "PySC.C27_violated"
   ],
   "note": "Proved when the start has an offset uncertainty or the ends had equal offsets before, for supports shorter than the ring; violated otherwise (C27_violated)."
  },
  {
   "property": "C28",
   "status": "partial",
   "theorems": [
    "PySC.C28_violated",
    "PySC.C28_end_offsets_partial"
   ],
   "note": "Violated (C28_violated): the end is drawn with the uncertainty of the start. Proved: both ends obey the uncertainty of the start, hence their own if equal."
  },
  {
   "property": "C29",
   "status": "partial",
   "theorems": [
    "PySC.C29_update_supports",
    "PySC.C29_flags",
    "PySC.C29_apply_errors",
    "PySC.C29_moves_with_girder_partial",
    "PySC.C29_violated"
   ],
   "note": "Violated if an element before the girder has the same position (C29_violated); proved if the first element at the position is on the girder. C29_update_supports and C29_apply_errors give the exact value in all cases."
  },
  {
   "property": "C30",
   "status": "proved",
   "theorems": [
    "PySC.C30_rotation",
    "PySC.C30_entrance",
    "PySC.C30_exit",
    "PySC.C30_momenta",
    "PySC.C30_symplectic",
    "PySC.C30_straight_succeeds",
    "PySC.C30_no_misalignment",
    "PySC.C30_straight_offset",
    "PySC.C30_rolled_element_undone"
   ],
   "note": "Over the reals. For particles with transverse momentum the positions are linearised by the code; exactness is proved for particles parallel to the axis, and for the momenta of all particles."
  },
  {
   "property": "C31",
   "status": "proved",
   "theorems": [
    "PySC.C31_unknown_word",
    "PySC.C31_effect",
    "PySC.C31_idempotent",
    "PySC.C31_on_off_restores",
    "PySC.C31_off_wins",
    "PySC.C31_cavity_not_restored"
   ],
   "note": "Rings of any length whose elements have a PassMethod. Finding (C31_cavity_not_restored): cavities off/on does not restore pass methods other than RFCavityPass, and 'cavityoff' uses IdentityPass also for cavities with length."
  },
  {
   "property": "C32",
   "status": "proved",
   "theorems": [
    "PySC.C32_unknown_mode",
    "PySC.C32_orb",
    "PySC.C32_tbt",
    "PySC.C32_history",
    "PySC.C32_orb_history"
   ],
   "note": "All histories of assignments; direct assignments to nTurns/nParticles afterwards are outside the setter."
  },
  {
   "property": "C33",
   "status": "proved",
   "theorems": [
    "PySC.C33_reading",
    "PySC.C33_reading_porb",
    "PySC.C33_no_registered_bpm",
    "PySC.C33_perfect_reading"
   ],
   "note": "All modes, shots, turns, bunches and random streams; the random numbers of different shots, planes, BPMs and turns are proved to be different draws. Tracking, closed orbit, cosine and sine are arbitrary parameters."
  },
  {
   "property": "C34",
   "status": "partial",
   "theorems": [
    "PySC.C34_seen_shots_only_partial",
    "PySC.C34_lost_beam_partial",
    "PySC.C34_violated_porb"
   ],
   "note": "Proved for the modes TBT and ORB. In PORB mode a BPM which never sees the beam makes the whole reading raise ZeroDivisionError (np.average with weights adding up to zero), C34_violated_porb."
  },
  {
   "property": "C35",
   "status": "proved",
   "theorems": [
    "PySC.C35_transmission",
    "PySC.C35_no_tolerance"
   ],
   "note": "For every tracking function and random stream. With beamLostAt=0 no turn is ever counted (C35_no_tolerance)."
  },
  {
   "property": "C36",
   "status": "partial",
   "theorems": [
    "PySC.C36_uncorrelated_partial",
    "PySC.C36_violated",
    "PySC.C36_bunch",
    "PySC.C36_single_particle"
   ],
   "note": "Proved: bunches are centroid plus matrix times fresh random numbers; the matrix has covariance diag(eigenvalues), which is the requested one for uncorrelated beams. For a correlated beam the covariance is wrong (C36_violated): the code multiplies diag(sqrt(V)) @ L instead of L @ diag(sqrt(V)). The random numbers are treated as arbitrary here; their truncated normal distribution is C95."
  },
  {
   "property": "C37",
   "status": "proved",
   "theorems": [
    "PySC.C37_first_turn",
    "PySC.C37_only_correctors",
    "PySC.C37_no_beam"
   ],
   "note": "The pseudo-inverse, tracking and the wiggling pattern are parameters; the returned list is a ghost log of the readings. Corrector lists are assumed increasing and limits not negative."
  },
  {
   "property": "C38",
   "status": "partial",
   "theorems": [
    "PySC.C38_violated_perfect",
    "PySC.C38_correct_partial",
    "PySC.C38_only_correctors",
    "PySC.C38_violated_criterion",
    "PySC.C38_violated_steady",
    "PySC.C38_violated_no_steps"
   ],
   "note": "Partial: the code computes variance over standard deviation, i.e. the standard deviation, not the documented coefficient of variation; C38_violated_criterion (accepted at coefficient 1), C38_violated_steady (a perfectly steady orbit is refused, 0/0), C38_violated_no_steps (maxsteps=0 may return with incomplete transmission); C38_violated_perfect (an exact correction is refused with the default options)."
  },
  {
   "property": "C39",
   "status": "partial",
   "theorems": [
    "PySC.C39_stitch_partial",
    "PySC.C39_balance",
    "PySC.C39_stitch_only_correctors",
    "PySC.C39_balance_only_correctors",
    "PySC.C39_stitch_refuses",
    "PySC.C39_violated_setback"
   ],
   "note": "Partial: C39_violated_setback - the exception for a setback of the transmission in stitch is created but never raised (orbit_trajectory.py:168). Everything else of the statement is proved."
  },
  {
   "property": "C40",
   "status": "partial",
   "theorems": [
    "PySC.C40_upstream",
    "PySC.C40_full_turn",
    "PySC.C40_violated_positions",
    "PySC.C40_violated_no_reading"
   ],
   "note": "Partial: C40_violated_positions - if the beam survives and fewer than n correctors are given, the positions are negative and do not match; C40_violated_no_reading - called with no BPM reached (by _wiggling) it returns correctors up to the last BPM."
  },
  {
   "property": "C41",
   "status": "proved",
   "theorems": [
    "PySC.C41_flags",
    "PySC.C41_applied",
    "PySC.C41_each_entry",
    "PySC.C41_succeeds"
   ],
   "note": "Flags, the change of each offset, the frame and success are proved for all tables."
  },
  {
   "property": "C42",
   "status": "proved",
   "theorems": [
    "PySC.C42_given_size",
    "PySC.C42_estimated_size",
    "PySC.C42_refuses"
   ],
   "note": "Sizes given by the caller and sizes estimated from the unflagged BPMs."
  },
  {
   "property": "C43",
   "status": "partial",
   "theorems": [
    "PySC.C43_scaling",
    "PySC.C43_measurement",
    "PySC.C43_phase_scan",
    "PySC.C43_trajectory_bba",
    "PySC.C43_measurement_exact",
    "PySC.C43_trajectory_bba_exact",
    "PySC.C43_refuses",
    "PySC.C43_violated_exception",
    "PySC.C43_violated_limit"
   ],
   "note": "Proved when the call returns and each magnet can be brought back to its set-point (skew limit, unlimited compensating corrector). Violated: an exception in the measurement leaves magnet and injection shifted; a limited compensating corrector does not return. orbit_bba always raises (C78). If the fields were up to date and only registered magnets are used, the lattice itself is restored exactly (C43_measurement_exact, C43_trajectory_bba_exact)."
  },
  {
   "property": "C44",
   "status": "proved",
   "theorems": [
    "PySC.C44_folding",
    "PySC.C44_unique",
    "PySC.C44_idempotent"
   ],
   "note": ""
  },
  {
   "property": "C45",
   "status": "partial",
   "theorems": [
    "PySC.C45_frequency",
    "PySC.C45_frequency_exact",
    "PySC.C45_frequency_failure",
    "PySC.C45_phase",
    "PySC.C45_phase_zero",
    "PySC.C45_phase_failure",
    "PySC.C45_energy_shift",
    "PySC.C45_violated_failed_reading"
   ],
   "note": "Violated by exceptions during a measurement, which leave the cavities shifted (C45_violated_failed_reading); all other exceptions restore them (C45_frequency_failure, C45_phase_failure say which). scipy curve_fit and fsolve are arbitrary functions; the straight line fit is modelled and proved to be the best fit."
  },
  {
   "property": "C46",
   "status": "partial",
   "theorems": [
    "PySC.C46_points",
    "PySC.C46_result",
    "PySC.C46_failure_partial",
    "PySC.C46_violated_failure",
    "PySC.C46_violated_even"
   ],
   "note": "Violated when the scan fails: after each point the nominal strengths are divided by the factors instead of being restored, and that is what a failing scan leaves (C46_violated_failure). Violated for even numbers of factors: the scan asks for grid points beyond the grid (C46_violated_even, with the true golden angle). The result of a successful scan (C46_result), the visited points for odd grids (C46_points) and that failures change nothing but quadrupole set-points (C46_failure_partial) are proved."
  },
  {
   "property": "C47",
   "status": "partial",
   "theorems": [
    "PySC.C47_values_partial",
    "PySC.C47_moore_penrose",
    "PySC.C47_unique",
    "PySC.C47_damping",
    "PySC.C47_removed_partial",
    "PySC.C47_tikhonov",
    "PySC.C47_too_many",
    "PySC.C47_violated_removal"
   ],
   "note": "The singular value decomposition is a parameter constrained by its defining equations (IsSvd). C47_violated_removal: with num_removed larger than the number of available singular values the negative slice end wraps around and some values are kept instead of none; the partial theorems cover num_removed up to their number."
  },
  {
   "property": "C48",
   "status": "proved",
   "theorems": [
    "PySC.C48_sum",
    "PySC.C48_commutative",
    "PySC.C48_associative",
    "PySC.C48_refused"
   ],
   "note": "Dimensions are modelled by shapes; one-dimensional arrays are added, arrays of different or higher dimension are refused."
  },
  {
   "property": "C49",
   "status": "proved",
   "theorems": [
    "PySC.C49_weighted_mean",
    "PySC.C49_least_squares",
    "PySC.C49_unusable_errors",
    "PySC.C49_bounds",
    "PySC.C49_shift",
    "PySC.C49_scaling",
    "PySC.C49_missing",
    "PySC.C49_sample_size",
    "PySC.C49_unbias",
    "PySC.C49_error",
    "PySC.C49_rms"
   ],
   "note": ""
  },
  {
   "property": "C50",
   "status": "proved",
   "theorems": [
    "PySC.C50_straight",
    "PySC.C50_drift",
    "PySC.C50_lost"
   ],
   "note": ""
  },
  {
   "property": "C51",
   "status": "partial",
   "theorems": [
    "PySC.C51_applied",
    "PySC.C51_failure",
    "PySC.C51_merit_partial",
    "PySC.C51_violated"
   ],
   "note": "Violated: the merit is the modulus of the mean difference, in which differences cancel (C51_violated). Proved: what the merit is and that it vanishes for equal trajectories (C51_merit_partial), what is done with the minimum (C51_applied) and that failures change nothing (C51_failure)."
  },
  {
   "property": "C52",
   "status": "proved",
   "theorems": [
    "PySC.C52_columns",
    "PySC.C52_exact",
    "PySC.C52_succeeds",
    "PySC.C52_refuses",
    "PySC.C52_dispersion",
    "PySC.C52_dispersion_succeeds"
   ],
   "note": "Proved with tracking and closed orbit as arbitrary functions of the lattice. With the model ring instead of the ideal ring the machine is changed, see C53."
  },
  {
   "property": "C53",
   "status": "partial",
   "theorems": [
    "PySC.C53_model_partial",
    "PySC.C53_erases",
    "PySC.C53_unchanged_iff",
    "PySC.C53_violated"
   ],
   "note": "The returned lattice is proved; the claim that SC stays unchanged is refuted: arrays of set-points are aliased (pyAT does not copy float arrays), so all dipole set-points of the machine become zero (C53_erases); SC is unchanged iff they were zero (C53_unchanged_iff)."
  },
  {
   "property": "C54",
   "status": "partial",
   "theorems": [
    "PySC.C54_dispersion",
    "PySC.C54_violated_steps",
    "PySC.C54_violated_integer",
    "PySC.C54_orbit_response_partial",
    "PySC.C54_response_matrix_partial",
    "PySC.C54_response_columns_partial",
    "PySC.C54_violated_response_matrix",
    "PySC.C54_violated_trackmode",
    "PySC.C54_violated_limit",
    "PySC.C54_violated_integer_kick",
    "PySC.C54_violated_default_steps",
    "PySC.C54_violated_lost_beam"
   ],
   "note": "Exact restoration proved for returning calls. Violated: dispersion never returns for n_steps != 2 or integer steps; measure_closed_orbit_response_matrix leaves the tracking mode at ORB; integer kicks and limits are not undone; response_matrix never returns for n_steps != 1 (default 2) and leaves the corrector kicked, also when the beam is lost."
  },
  {
   "property": "C55",
   "status": "partial",
   "theorems": [
    "PySC.C55_halves",
    "PySC.C55_result",
    "PySC.C55_terminates",
    "PySC.C55_diverges",
    "PySC.C55_sorted",
    "PySC.C55_widens",
    "PySC.C55_always_scaled",
    "PySC.C55_radius_partial",
    "PySC.C55_violated",
    "PySC.C55_violated_refine",
    "PySC.C55_area",
    "PySC.C55_violated_momentum",
    "PySC.C55_increments",
    "PySC.C55_momentum_accuracy_partial"
   ],
   "note": "Bisection, termination, widening of bounds, area: proved for every survival predicate, given that the result of tracking is read out as intended. As it is the result is indexed by particle instead of turn, so the function raises IndexError for every lattice (C55_violated); the bounds are never accepted, because both test particles share one array (C55_always_scaled); the momentum aperture accumulates its steps (C55_violated_momentum)."
  },
  {
   "property": "C56",
   "status": "partial",
   "theorems": [
    "PySC.C56_tables_partial",
    "PySC.C56_nothing_else",
    "PySC.C56_effect_partial",
    "PySC.C56_violated_columns",
    "PySC.C56_violated_skew_from_normal",
    "PySC.C56_violated_table"
   ],
   "note": "Stored tables, effect on the field and framing are proved. Violated parts: the column of the main field's polynomial is used for both target polynomials and the other column is ignored (C56_violated_columns, C56_violated_skew_from_normal); the caller's table is changed (C56_violated_table). That the stored columns are views of the caller's table is the subject of C92."
  },
  {
   "property": "C57",
   "status": "proved",
   "theorems": [
    "PySC.C57_random_multipoles",
    "PySC.C57_calls_accumulate",
    "PySC.C57_padded",
    "PySC.C57_nothing_else"
   ],
   "note": "All tables, magnets (with repetition), streams; several calls; framing also for failing calls."
  },
  {
   "property": "C58",
   "status": "partial",
   "theorems": [
    "PySC.C58_groups",
    "PySC.C58_refuses",
    "PySC.C58_linear",
    "PySC.C58_recovers",
    "PySC.C58_gauss_newton_partial",
    "PySC.C58_violated_gauss_newton_groups",
    "PySC.C58_violated_gauss_newton_weights",
    "PySC.C58_violated_gauss_newton_sums",
    "PySC.C58_set_correction",
    "PySC.C58_set_correction_families",
    "PySC.C58_beta_beat"
   ],
   "note": "Proved for the Levenberg-Marquardt variant given a solver which returns a minimum (the solver of scipy is a parameter): groups, linearity, exact recovery. The Gauss-Newton variant is only right if all parameters are fitted, weights are 1 and the information is in the sums over correctors (C58_gauss_newton_partial); otherwise it is wrong (three witnesses C58_violated_gauss_newton_*): the right hand side uses the matrices of the first parameters instead of the selected ones, weights enter twice, and everything is summed over correctors."
  },
  {
   "property": "C59",
   "status": "partial",
   "theorems": [
    "PySC.C59_subsequence_partial",
    "PySC.C59_count",
    "PySC.C59_refuses",
    "PySC.C59_violated_count"
   ],
   "note": "The subsequence and its spacing are proved. The size is wrong: one less than requested if the number of intervals divides the number of elements, and otherwise up to nearly twice the requested size (C59_count says exactly when it is right; C59_violated_count is a witness). Requests for one element raise ZeroDivisionError, for too many ValueError."
  },
  {
   "property": "C60",
   "status": "proved",
   "theorems": [
    "PySC.C60_ords_from_regex",
    "PySC.C60_intersect"
   ],
   "note": "The regular expression search is an arbitrary predicate on family names."
  },
  {
   "property": "C61",
   "status": "partial",
   "theorems": [
    "PySC.C61_converted",
    "PySC.C61_get_partial",
    "PySC.C61_set",
    "PySC.C61_delete",
    "PySC.C61_violated_methods"
   ],
   "note": "C61_violated_methods: reading a stored entry whose name is that of a dict method (items, keys, update, ...) as an attribute gives the method. The partial theorem covers every other name."
  },
  {
   "property": "C62",
   "status": "proved",
   "theorems": [
    "PySC.C62_accepted",
    "PySC.C62_exact",
    "PySC.C62_no_limit"
   ],
   "note": "Missing CMlimit raises AttributeError (C62_no_limit), a missing SIG entry KeyError; double registrations only log. Log messages are not modelled."
  },
  {
   "property": "C63",
   "status": "proved",
   "theorems": [
    "PySC.C63_realised_cavity_fields"
   ],
   "note": ""
  },
  {
   "property": "C64",
   "status": "partial",
   "theorems": [
    "PySC.C64_rolls_and_slopes_partial",
    "PySC.C64_violated_across_origin"
   ],
   "note": "For layouts without supports across the origin; for a plinth across the origin it is violated (C64_violated_across_origin). The value is taken at the first element at the same position."
  },
  {
   "property": "C65",
   "status": "proved",
   "theorems": [
    "PySC.C65_children_placed_like_master"
   ],
   "note": ""
  },
  {
   "property": "C66",
   "status": "partial",
   "theorems": [
    "PySC.C66_direction_partial",
    "PySC.C66_violated_pitch"
   ],
   "note": "The angles which enter the transformation are proved to be the slopes of the support, so that the horizontal direction follows it. The vertical direction does not: a positive slope is used as a positive turn about x, which points the magnet downwards (C66_violated_pitch)."
  },
  {
   "property": "C67",
   "status": "proved",
   "theorems": [
    "PySC.C67_records_consistent",
    "PySC.C67_fully_registered",
    "PySC.C67_ordinates_exist",
    "PySC.C67_violated_failed_registration"
   ],
   "note": "Without exceptions all ordinates exist; a failed registration leaves ordinates behind that do not (C67_violated_failed_registration)."
  },
  {
   "property": "C68",
   "status": "partial",
   "theorems": [
    "PySC.C68_design_data_kept",
    "PySC.C68_nominal_of_registration",
    "PySC.C68_nominal_partial",
    "PySC.C68_violated_late_registration"
   ],
   "note": "Who writes design data: proved for all histories. Nominal = design: proved when successful registrations come first; violated when magnets are registered after errors were applied, because register_magnets copies the present PolynomA/B."
  },
  {
   "property": "C69",
   "status": "partial",
   "theorems": [
    "PySC.C69_errors_partial",
    "PySC.C69_violated"
   ],
   "note": "Violated: the phase is folded modulo the wave length in meters instead of one (C69_violated)."
  },
  {
   "property": "C70",
   "status": "partial",
   "theorems": [
    "PySC.C70_range",
    "PySC.C70_periods",
    "PySC.C70_shift",
    "PySC.C70_constant",
    "PySC.C70_midpoint",
    "PySC.C70_error",
    "PySC.C70_error_constant",
    "PySC.C70_violated_rms"
   ],
   "note": "Violated for circular_rms, which folds the squares of the data with the period of the data (C70_violated_rms); the statements on mean and error are proved."
  },
  {
   "property": "C71",
   "status": "partial",
   "theorems": [
    "PySC.C71_centre",
    "PySC.C71_violated_no_data",
    "PySC.C71_violated_no_effect",
    "PySC.C71_violated_no_noise"
   ],
   "note": "Exact centre proved for the linear fit. Violated: too few data raise ZeroDivisionError for the whole procedure; noise-free BPMs give no result; a magnet without effect can be accepted because variances are used as errors."
  },
  {
   "property": "C72",
   "status": "proved",
   "theorems": [
    "PySC.C72_after_update",
    "PySC.C72_every_history",
    "PySC.C72_no_hysteresis",
    "PySC.C72_violated_exception"
   ],
   "note": "Proved for all sequences of successful calls (Spec.Restore: runTrims). Calls that raise half way leave set-points changed but the field not (C72_violated_exception), so histories with exceptions are excluded."
  },
  {
   "property": "C73",
   "status": "partial",
   "theorems": [
    "PySC.C73_quads",
    "PySC.C73_schedule",
    "PySC.C73_gains",
    "PySC.C73_violated_ideal",
    "PySC.C73_violated_dispersion_full",
    "PySC.C73_violated_dispersion"
   ],
   "note": "Proved for useIdealRing=False, set-points being added to and skew quadrupole limits not in the way: every entry, independence of the distribution over processes (for runs which succeed), machine left alone, gains. Violated with the default useIdealRing=True (quadrupole matrices are zero) and with includeDispersion=True (always ValueError for the full Jacobian; otherwise the additional column does not depend on the quadrupole)."
  },
  {
   "property": "C74",
   "status": "partial",
   "theorems": [
    "PySC.C74_chroma_partial",
    "PySC.C74_nan_target",
    "PySC.C74_violated_tune",
    "PySC.C74_violated_solution",
    "PySC.C74_violated_rounding"
   ],
   "note": "Proved: nothing else changes, whatever the minimiser does, and the set-points are those before the call rounded towards zero plus the last point tried (C74_chroma_partial). Violated: the solution is not set (C74_violated_solution), set-points are rounded to integers (C74_violated_rounding), a NaN target is not an error (C74_nan_target), the tune fit always raises (C74_violated_tune)."
  },
  {
   "property": "C75",
   "status": "partial",
   "theorems": [
    "PySC.C75_reading",
    "PySC.C75_one_shot",
    "PySC.C75_violated_shots",
    "PySC.C75_violated_porb"
   ],
   "note": "Positions, readings, random numbers: proved. The agreement with bpm_reading holds for one shot in the modes TBT and ORB, including exceptions (C75_one_shot); it is violated for several shots (plain instead of weighted mean, C75_violated_shots) and in PORB mode (C75_violated_porb)."
  },
  {
   "property": "C76",
   "status": "partial",
   "theorems": [
    "PySC.C76_correctors_set",
    "PySC.C76_correctors_read",
    "PySC.C76_magnets_set_partial",
    "PySC.C76_cavities_set_partial",
    "PySC.C76_updates",
    "PySC.C76_updates_all",
    "PySC.C76_registered_magnets",
    "PySC.C76_registered_cavities",
    "PySC.C76_violated_integer_steps",
    "PySC.C76_violated_scalar_uncertainty",
    "PySC.C76_violated_short_uncertainty"
   ],
   "note": "Proved in full for correctors and updates; for set_magnet_setpoints and set_cavity_setpoints only for floating point steps, since integer steps raise TypeError (C76_violated_integer_steps). Uncertainties have to fit: register_magnets accepts a single number, or too short an array for a combined function magnet, and then apply_errors and all later updates raise (C76_violated_scalar_uncertainty, C76_violated_short_uncertainty)."
  },
  {
   "property": "C77",
   "status": "partial",
   "theorems": [
    "PySC.C77_correctors",
    "PySC.C77_magnets",
    "PySC.C77_refuses",
    "PySC.C77_fit_injection",
    "PySC.C77_random_multipoles",
    "PySC.C77_systematic_multipoles_partial",
    "PySC.C77_feedback",
    "PySC.C77_transformation",
    "PySC.C77_violated_reference_point",
    "PySC.C77_phase_partial",
    "PySC.C77_violated_energy",
    "PySC.C77_violated_phase_failure",
    "PySC.C77_violated_bba_mode",
    "PySC.C77_violated_pseudo_bba"
   ],
   "note": "Correctors, magnets, refused planes and types, random multipoles, the feedback functions and the transformation are proved. Systematic multipoles: both polynomials get one column (C56); the phase correction restores the number of turns only on success. Violations proved: the default reference point of SCgetTransformation is refused, SCsynchEnergyCorrection always raises and leaves nTurns changed, SCsynchPhaseCorrection leaves nTurns changed on failure, SCBBA silently does nothing for unknown modes, SCpseudoBBA ignores sigma."
  },
  {
   "property": "C78",
   "status": "partial",
   "theorems": [
    "PySC.C78_violated_orbit_bba",
    "PySC.C78_unchanged_partial"
   ],
   "note": "The negation is proved: orbit_bba raises for all arguments. What holds: only the random-number position can have changed."
  },
  {
   "property": "C79",
   "status": "partial",
   "theorems": [
    "PySC.C79_setpoints",
    "PySC.C79_contraction",
    "PySC.C79_exact",
    "PySC.C79_violated_measurement",
    "PySC.C79_violated_fit_parameters",
    "PySC.C79_violated_cm_structure",
    "PySC.C79_cm_structure"
   ],
   "note": "Set-points, contraction factor and exactness are proved for all inputs. Violations proved: loco_measurement never completes, loco_fit_parameters raises for any non-empty family, loco_cm_structure raises with its default steps. Not modelled: loco_model."
  },
  {
   "property": "C80",
   "status": "partial",
   "theorems": [
    "PySC.C80_gains",
    "PySC.C80_recovers",
    "PySC.C80_mean",
    "PySC.C80_rolls",
    "PySC.C80_nothing_else",
    "PySC.C80_violated_defaults",
    "PySC.C80_violated_kicks"
   ],
   "note": "Gains, mean, recovery, rolls and frame are proved. Violations proved: the structure of loco_bpm_structure (no FitCoupling) never works, the default outlier limit raises when gains are fitted, fitted kicks can not be applied."
  },
  {
   "property": "C81",
   "status": "partial",
   "theorems": [
    "PySC.C81_read",
    "PySC.C81_violated_ambiguous",
    "PySC.C81_incomplete",
    "PySC.C81_violated_skew",
    "PySC.C81_violated_normal",
    "PySC.C81_apply_partial"
   ],
   "note": "Reading is proved for files with a unique main component; application under the restriction of C56. Violations proved: an ambiguous table raises TypeError instead of continuing; the returned order and type do not fit SCsetMultipoles."
  },
  {
   "property": "C82",
   "status": "partial",
   "theorems": [
    "PySC.C82_violated_ramp",
    "PySC.C82_violated_compound",
    "PySC.C82_circumference_partial"
   ],
   "note": "Violated. SCrampUpErrors never completes: scaleSupport iterates over the rows of the 2 x n ordinates (IndexError without sections, TypeError with them, as pyAT elements are not subscriptable). SC0 is an alias of SC, so the scales compound (C82_violated_compound; two steps leave half of the injection error). Proved: a single circumference step leaves the given fraction. Scaling of magnets, BPMs and cavities is not modelled (never reached)."
  },
  {
   "property": "C83",
   "status": "proved",
   "theorems": [
    "PySC.C83_magnets",
    "PySC.C83_cavities",
    "PySC.C83_histories"
   ],
   "note": "For calls that return. That update_supports would change nothing is C84."
  },
  {
   "property": "C84",
   "status": "proved",
   "theorems": [
    "PySC.C84_idempotent",
    "PySC.C84_apply_errors",
    "PySC.C84_operations"
   ],
   "note": "Aligned says update_supports would change nothing; Operated (Spec/Alignment.lean) are the sequences of operations. BpmsApart is the stated restriction."
  },
  {
   "property": "C85",
   "status": "proved",
   "theorems": [
    "PySC.C85_own_random_numbers",
    "PySC.C85_seeds"
   ],
   "note": "Errors of supports are not part of the statement: the end of a support without own uncertainty copies the start by design, and offsets of both ends are corrected for pitch and yaw (C64, C65)."
  },
  {
   "property": "C86",
   "status": "proved",
   "theorems": [
    "PySC.C86_ends",
    "PySC.C86_succeeds",
    "PySC.C86_right_angles"
   ],
   "note": "Non-finite results of divisions are exceptions in the model (Err.nonFinite), so the theorems also exclude inf and nan from division by zero. A magnet at right angles gives inf in numpy, not an exception."
  },
  {
   "property": "C87",
   "status": "proved",
   "theorems": [
    "PySC.C87_correct",
    "PySC.C87_exact",
    "PySC.C87_balance"
   ],
   "note": "For calls which return; linearity is required for the readings of the call only. Without noise; scaleDisp = 0 (no frequency correction)."
  },
  {
   "property": "C88",
   "status": "proved",
   "theorems": [
    "PySC.C88_registered",
    "PySC.C88_errors",
    "PySC.C88_operated"
   ],
   "note": "What 'in order' means is spelled out call by call in Spec/Registrable.lean. Later requests as in C76 (steps not given as integers, otherwise C76_violated_integer_steps)."
  },
  {
   "property": "C89",
   "status": "partial",
   "theorems": [
    "PySC.C89_mean",
    "PySC.C89_rms",
    "PySC.C89_circular_mean",
    "PySC.C89_circular_error_partial",
    "PySC.C89_complete",
    "PySC.C89_understated",
    "PySC.C89_violated_error"
   ],
   "note": "circular_nanerror violates it without errors to weight: the sample size counts the missing data (C89_violated_error), so that the error is too small (C89_understated). With usable errors, or without missing data, it holds. One-dimensional arrays (axis=None)."
  },
  {
   "property": "C90",
   "status": "partial",
   "theorems": [
    "PySC.C90_design_lattice",
    "PySC.C90_records",
    "PySC.C90_consistent",
    "PySC.C90_fully_registered",
    "PySC.C90_limits_partial",
    "PySC.C90_violated_dipole_component"
   ],
   "note": "Everything but the limits is proved for all sessions. Limits: set_magnet_setpoints with order 0 (and the functions which pass an order on) sets a kick without looking at the corrector limit (C90_violated_dipole_component); for sessions without such a request the limits are respected, if elements with corrector limits are neither drifts nor cavities (C90_limits_partial)."
  },
  {
   "property": "C91",
   "status": "proved",
   "theorems": [
    "PySC.C91_two_calls",
    "PySC.C91_any_order",
    "PySC.C91_reading",
    "PySC.C91_split_set_cm",
    "PySC.C91_same_element",
    "PySC.C91_child"
   ],
   "note": "Supports and calls which draw random numbers concern the whole machine and are not among the calls considered. The order in which entries were added to the dictionaries of uncertainties is not observed. Calls which set systematic errors are given tables of their own (see C92). C91_same_element and C91_child show that the hypothesis about different elements is needed."
  },
  {
   "property": "C92",
   "status": "partial",
   "theorems": [
    "PySC.C92_own_tables_partial",
    "PySC.C92_follows_table",
    "PySC.C92_stay_partial",
    "PySC.C92_violated_second_call",
    "PySC.C92_violated_write",
    "PySC.C92_violated_field"
   ],
   "note": "Violated: the stored columns are views of the caller's table (C92_follows_table). A second call with the same table for another component erases that component from the errors given earlier to other magnets (C92_violated_second_call, C92_violated_field); what the caller writes into the table becomes the errors (C92_violated_write). Proved: as long as every call has a table of its own, the machine is the same as with copies (C92_own_tables_partial), and errors stay as long as nobody uses the table again (C92_stay_partial)."
  },
  {
   "property": "C93",
   "status": "partial",
   "theorems": [
    "PySC.C93_orbit_response_partial",
    "PySC.C93_dispersion_partial",
    "PySC.C93_violated_children"
   ],
   "note": "C93_dispersion covers closed orbits and the turns of a single particle injected without jitter, with two measurements (n_steps=2; more steps always fail). Violated for orbit responses of correctors which drive other magnets (MasterOf): the machine moves them along, the model does not (C93_violated_children). Otherwise proved as long as no corrector reaches its limit; BPMs in the order of the ring, as pyAT wants them."
  },
  {
   "property": "C94",
   "status": "proved",
   "theorems": [
    "PySC.C94_same_numbers",
    "PySC.C94_displacement",
    "PySC.C94_transmission"
   ],
   "note": "For readings which return. The displacement is stated for the modes TBT and ORB (the pseudo orbit is the mean over the turns which a BPM sees, so that it is displaced by the mean if the same turns are seen). Readings are made of the numbers drawn (Spec.MadeWith); where the numbers come from is C33."
  },
  {
   "property": "C95",
   "status": "proved",
   "theorems": [
    "PySC.C95_calls",
    "PySC.C95_randnc",
    "PySC.C95_zero_cutoff_never_returns"
   ],
   "note": "Almost sure termination is part of the statement (C95_calls, C95_randnc). With cut-off zero, which the property excludes, randnc almost surely never returns (C95_zero_cutoff_never_returns)."
  },
  {
   "property": "C96",
   "status": "proved",
   "theorems": [
    "PySC.C96_law",
    "PySC.C96_machines_in_order"
   ],
   "note": "The property is about errors of cavities, BPMs, magnets, injection and circumference; support errors are outside it (their ranges are C24, C25 and C86). Almost sure success is for machines in order in the sense of C86 whose transformations can be computed."
  },
  {
   "property": "C97",
   "status": "partial",
   "theorems": [
    "PySC.C97_centred_partial",
    "PySC.C97_violated_rms",
    "PySC.C97_rms_of_large_cutoffs_partial"
   ],
   "note": "Mean and correlations are proved. The statement about the rms value is violated: numbers beyond the cut-off are drawn again, so the rms value is strictly smaller than the uncertainty for every cut-off (C97_violated_rms) and only approaches it for large cut-offs."
  },
  {
   "property": "C98",
   "status": "proved",
   "theorems": [
    "PySC.C98_law",
    "PySC.C98_machines_in_order"
   ],
   "note": "How a reading is computed from the numbers is Spec.ReadFrom (bunches: Spec.BunchFrom, shots: Spec.shotsAt; in pseudo-orbit mode the readings are means over turns). Hypotheses: six injection jitters, and particles are lost in both planes at once; that readings are obtained in pseudo-orbit mode needs BPMs which see the beam in some turn (C99). In orbit mode numbers of a shot are shared by all turns, as only one turn is computed."
  },
  {
   "property": "C99",
   "status": "partial",
   "theorems": [
    "PySC.C99_readings_partial",
    "PySC.C99_transmission",
    "PySC.C99_violated_pseudo_orbit",
    "PySC.C99_almost_surely_partial"
   ],
   "note": "Proved for turn-by-turn and orbit mode, and in 'PORB' mode if every BPM sees the beam in some turn. Violated in 'PORB' mode otherwise: np.average raises ZeroDivisionError as soon as one of the requested BPMs sees no beam in any turn, so that all readings are lost (C99_violated_pseudo_orbit)."
  },
  {
   "property": "C100",
   "status": "partial",
   "theorems": [
    "PySC.C100_unbiased_partial",
    "PySC.C100_violated_noise_level"
   ],
   "note": "Proved: the measurement almost surely succeeds, mean and correlations, and that the mean square deviation is at most noise**2 / nShots up to a factor (1 - 2 |SumError|)**-2. The exact size is violated: the noise is cut off at 2 sigma by drawing again, so the rms deviation is strictly smaller than the noise level says (C100_violated_noise_level)."
  },
  {
   "property": "C101",
   "status": "partial",
   "theorems": [
    "PySC.C101_bpms",
    "PySC.C101_cavities",
    "PySC.C101_magnets",
    "PySC.C101_masters",
    "PySC.C101_supports_partial",
    "PySC.C101_violated_supports"
   ],
   "note": "Proved in full for BPMs, cavities and magnets (masters: distinct ordinates, the columns of MasterOf side by side). Supports: proved if no element is an end of supports in both calls; violated otherwise, because register_supports clears the uncertainties of both ends: the support registered first loses its uncertainties without notice when a second one ends at the element where it begins (C101_violated_supports)."
  },
  {
   "property": "C102",
   "status": "proved",
   "theorems": [
    "PySC.C102_session",
    "PySC.C102_setpoints_and_readings",
    "PySC.C102_measurements",
    "PySC.C102_trajectories",
    "PySC.C102_records",
    "PySC.C102_uncertainties",
    "PySC.C102_bpm_or_support",
    "PySC.C102_not_for_fake_bba"
   ],
   "note": "Whole sessions (C102_session, C102_setpoints_and_readings), returned values (C102_measurements, C102_trajectories), and the class of machines differing in uncertainties and records of alignment, for tracking which does not read these records (C102_records, C102_uncertainties, C102_bpm_or_support). loco_measurement is outside the sessions considered. C102_not_for_fake_bba shows the boundary: fake_bba does depend on the true offsets of the magnets."
  },
  {
   "property": "C103",
   "status": "proved",
   "theorems": [
    "PySC.C103_proportional",
    "PySC.C103_one_by_one",
    "PySC.C103_others_unchanged",
    "PySC.C103_both_succeed"
   ],
   "note": "C103_proportional (one factor), C103_one_by_one (a factor for each uncertainty; supports share one, as they are connected), C103_others_unchanged, and C103_both_succeed for machines in order in the sense of C86. Uncertainties given for cavity set-points replace the set-point and are no errors."
  },
  {
   "property": "C104",
   "status": "proved",
   "theorems": [
    "PySC.C104_new_object",
    "PySC.C104_copied_object",
    "PySC.C104_as_values",
    "PySC.C104_only_there",
    "PySC.C104_agrees_with_model"
   ],
   "note": "Model/Objects.lean models elements as objects in memory with lattices as lists of addresses, Lattice.deepcopy() preserving sharing. C104_as_values is a simulation for all histories; C104_new_object, C104_copied_object (new objects only), C104_only_there, and C104_agrees_with_model, which justifies that all other parts of the model treat elements as values. An element is copied with everything in it, so arrays inside elements are not modelled as objects."
  },
  {
   "property": "C105",
   "status": "proved",
   "theorems": [
    "PySC.C105_support_offset_and_roll",
    "PySC.C105_update_supports",
    "PySC.C105_kinds"
   ],
   "note": "Superposition for support_offset_and_roll (with success), for update_supports, and as decomposition into the three kinds of supports."
  },
  {
   "property": "C106",
   "status": "partial",
   "theorems": [
    "PySC.C106_violated_bpms",
    "PySC.C106_violated_magnets",
    "PySC.C106_violated_cavities",
    "PySC.C106_contained_partial",
    "PySC.C106_all_exist_partial"
   ],
   "note": "Violated: the lists of registered elements are extended before the ordinates are used, and nothing ever takes an ordinate out again, so one ordinate outside the ring makes apply_errors, update_supports and readings of all BPMs raise for ever (proved for every object and every later sequence of calls). Proved in general: the damage is confined to the named elements, and with ordinates of the ring no non-existing element ever gets registered."
  },
  {
   "property": "C107",
   "status": "proved",
   "theorems": [
    "PySC.C107_law",
    "PySC.C107_machines_in_order",
    "PySC.C107_rigid",
    "PySC.C107_two_ends"
   ],
   "note": "The numbers of the end are multiplied by the uncertainty of the start, not by the one registered with the end; that this contradicts the documentation is C28."
  },
  {
   "property": "C108",
   "status": "proved",
   "theorems": [
    "PySC.C108_same_preparation",
    "PySC.C108_after_use",
    "PySC.C108_quiet",
    "PySC.C108_use_keeps_preparation",
    "PySC.C108_drift_cavity"
   ],
   "note": "C108_drift_cavity shows that cavities with pass method DriftPass have to be excluded: switched on they no longer take part in the change of the circumference. Applying errors twice is not covered, see C24."
  },
  {
   "property": "C109",
   "status": "proved",
   "theorems": [
    "PySC.C109_totals",
    "PySC.C109_same_totals",
    "PySC.C109_any_order",
    "PySC.C109_undone",
    "PySC.C109_two_as_one",
    "PySC.C109_cavities",
    "PySC.C109_limits_matter"
   ],
   "note": "C109_limits_matter shows that the condition on the limits is needed. Values of integer type and repeated ordinates are C16 and C17, dipole compensation is C18."
  },
  {
   "property": "C110",
   "status": "partial",
   "theorems": [
    "PySC.C110_there_and_back",
    "PySC.C110_back_and_there",
    "PySC.C110_points",
    "PySC.C110_area",
    "PySC.C110_violated_open_scan",
    "PySC.C110_violated_angles",
    "PySC.C110_auto",
    "PySC.C110_violated_auto"
   ],
   "note": "Proved: round trips, centring, area for closed scans, automatic angles of apertures wider than high. Violated: the area is not that of the returned points if the scan does not end where it began (C110_violated_open_scan); returned angles lie between -pi and pi (C110_violated_angles); no automatic angles exist if the aperture is at least as high as wide (C110_violated_auto). The model starts from the radii found; see C55 for the search itself."
  },
  {
   "property": "C111",
   "status": "proved",
   "theorems": [
    "PySC.C111_same_law",
    "PySC.C111_errors_are_random_variables",
    "PySC.C111_law",
    "PySC.C111_keyword_order",
    "PySC.C111_seed"
   ],
   "note": "Equality of measures on the space of all error components. Rings need a drift and a non-zero circumference (Scalable). The misalignments of supports are not among these errors (see C107 for their law). For a given seed the errors do depend on the order of keywords (C111_seed)."
  },
  {
   "property": "C112",
   "status": "proved",
   "theorems": [
    "PySC.C112_step",
    "PySC.C112_session",
    "PySC.C112_measurements",
    "PySC.C112_copy",
    "PySC.C112_registration_order",
    "PySC.C112_same_ring",
    "PySC.C112_pieces",
    "PySC.C112_keywords"
   ],
   "note": "Equivalent machines (Spec/Equivalent.lean) are equal except for the order of the entries of the dictionaries of uncertainties. All steps of Spec.Session are covered. C112_registration_order rests on C91 (which calls commute), C112_pieces on C101. The order of the keywords of one element does matter for a given seed (C112_keywords)."
  },
  {
   "property": "C113",
   "status": "partial",
   "theorems": [
    "PySC.C113_violated",
    "PySC.C113_lost",
    "PySC.C113_one_turn_partial",
    "PySC.C113_no_second_turn_partial",
    "PySC.C113_first_turn_partial"
   ],
   "note": "Violated: stitch and balance set the target of the second turn to zero in the array of the caller, as the reshaped array is a view (orbit_trajectory.py:145-147, 212-214); every such call that returns has done so (C113_lost), and a following correction steers to another target (C113_violated). Proved: it holds for sequences without stitch and balance and for targets without second turn; in general the entries of the first turn are kept and those of the second turn are all kept or all lost."
  },
  {
   "property": "C114",
   "status": "proved",
   "theorems": [
    "PySC.C114_measurements",
    "PySC.C114_errors",
    "PySC.C114_causal",
    "PySC.C114_machines_in_order"
   ],
   "note": "Adjustments are arbitrary functions of the positions read so far and the machine, which do not draw random numbers and keep the settings that determine how many numbers a reading uses."
  },
  {
   "property": "C115",
   "status": "partial",
   "theorems": [
    "PySC.C115_pattern",
    "PySC.C115_pattern_in_use",
    "PySC.C115_kicks_partial",
    "PySC.C115_first_round_partial",
    "PySC.C115_violated"
   ],
   "note": "Proved: the pattern has its points between the two radii (exact squared radius of each, first on the inner, last on the outer circle), and the one in use 32 points within 1 mrad (C115_pattern, C115_pattern_in_use); whatever the outcome of a search, each kick differs from that at the start by at most seven times the last point plus one point, so by at most eight times the outer radius (C115_kicks_partial); a search that succeeds within the first round leaves every corrector within the outer radius (C115_first_round_partial). Violated: every further round starts where the previous one ended, so kicks add up to eight times the outer radius, and a failed search does not take them back (C115_violated)."
  },
  {
   "property": "C116",
   "status": "partial",
   "theorems": [
    "PySC.C116_shown_once",
    "PySC.C116_level",
    "PySC.C116_debug_leaves_partial",
    "PySC.C116_log_file",
    "PySC.C116_violated_file",
    "PySC.C116_violated_later",
    "PySC.C116_violated_twice"
   ],
   "note": "Proved: each message exactly once on the right stream after any set-up (C116_shown_once) with the level set for the nearest module (C116_level); log file once (C116_log_file); after programs with nested debug modes, ended by exceptions or not, all messages appear as before, given that the log files can be opened (C116_debug_leaves_partial). Violated: if the log file cannot be opened the logger stays at DEBUG (C116_violated_file); the former effective level is set on the logger itself, which then no longer follows later changes (C116_violated_later); debug messages appear twice in a debug mode if the console shows them anyway (C116_violated_twice). The levels and handlers of python's logging module are part of the model."
  },
  {
   "property": "C117",
   "status": "partial",
   "theorems": [
    "PySC.C117_shown_partial",
    "PySC.C117_agrees_partial",
    "PySC.C117_drawn",
    "PySC.C117_violated"
   ],
   "note": "Proved: every figure that is drawn passes through the right points for all supports of a type (C117_shown_partial), for girders on the floor through the offsets of support_offset_and_roll (C117_agrees_partial), and the whole ring is drawn (C117_drawn). Violated: with x_lim that leaves out any support an IndexError is raised, because the values are collected only for supports in range but looked up by the position among all supports (C117_violated). Only the lines of individual supports are modelled, not the markers of magnets and BPMs, legends and colours."
  },
  {
   "property": "C118",
   "status": "partial",
   "theorems": [
    "PySC.C118_offsets_partial",
    "PySC.C118_rolls_partial",
    "PySC.C118_elements_partial",
    "PySC.C118_violated_roll",
    "PySC.C118_violated_offset"
   ],
   "note": "Proved: offsets of all elements for every layout in which both origins are handled as in C25 (C118_offsets_partial); roll, pitch and yaw if no support crosses either origin (C118_rolls_partial); the elements after update_supports if the last elements before the two origins have a length (C118_elements_partial). Violated: with a girder across the origin an element on no support gets a roll only for one way of counting (C118_violated_roll, see C26); a girder below the whole ring displaces nothing if counted so that its two ends, different elements at the same position, have the end first (C118_violated_offset)."
  },
  {
   "property": "C119",
   "status": "partial",
   "theorems": [
    "PySC.C119_own_partial",
    "PySC.C119_noise_partial",
    "PySC.C119_assign",
    "PySC.C119_violated"
   ],
   "note": "Proved for every history: writing into errors other than noise (C119_own_partial) and assigning new arrays to any error (C119_assign) change nothing else; writing into the noise changes no other error of the machine if every array was registered for one field of one BPM only (C119_noise_partial). Violated for the noise in general: apply_errors stores the registered array itself, which all BPMs of one register_bpms call share, so that other BPMs, SC.SIG and the array of the caller change as well, and applying errors again keeps the change (C119_violated)."
  },
  {
   "property": "C120",
   "status": "partial",
   "theorems": [
    "PySC.C120_bars",
    "PySC.C120_distribution",
    "PySC.C120_drawn_partial",
    "PySC.C120_violated"
   ],
   "note": "The contents of the figure are proved for all machines (C120_bars, C120_distribution), and that there is a figure if both planes have correctors (C120_drawn_partial). Violated otherwise: with correctors in one plane only, np.histogram with no bins raises a ValueError (C120_violated). np.histogram and np.cumsum are modelled from their documentation, with exact bin edges."
  },
  {
   "property": "C121",
   "status": "partial",
   "theorems": [
    "PySC.C121_points_partial",
    "PySC.C121_marks_partial",
    "PySC.C121_refused",
    "PySC.C121_drawn_partial",
    "PySC.C121_violated"
   ],
   "note": "The contents of every figure that is drawn (C121_points_partial, C121_marks_partial), the refusals (C121_refused) and that there is a figure for one ordinate (C121_drawn_partial) are proved for arbitrary tracking. Violated for several ordinates: the number of points and of their colours differ, which is a ValueError (C121_violated). From reading the code also without a registered cavity (IndexError)."
  },
  {
   "property": "C122",
   "status": "partial",
   "theorems": [
    "PySC.C122_restored_partial",
    "PySC.C122_elements",
    "PySC.C122_violated"
   ],
   "note": "Proved for all figures that are drawn (C122_restored_partial); elements never change (C122_elements). Violated if drawing fails: plot range and font size stay those of the failed figure, and the next figure without a range shows the wrong one (C122_violated). The functions that draw are an arbitrary function which may raise."
  },
  {
   "property": "C123",
   "status": "proved",
   "theorems": [
    "PySC.C123_apertures"
   ],
   "note": "Proved for all rings, reference points and cut-offs (C123_apertures)."
  },
  {
   "property": "C124",
   "status": "proved",
   "theorems": [
    "PySC.C124_session",
    "PySC.C124_measurements",
    "PySC.C124_repeated",
    "PySC.C124_columns"
   ],
   "note": "Proved for all sessions (C124_session) and all measurements (C124_measurements, C124_repeated, C124_columns), for generators whose truncated numbers are always found (otherwise randnc does not return) and a square root with sqrt 0 = 0. Tracking and closed orbit are arbitrary functions of the machine."
  },
  {
   "property": "C125",
   "status": "partial",
   "theorems": [
    "PySC.C125_magnets_partial",
    "PySC.C125_correctors",
    "PySC.C125_drawn",
    "PySC.C125_magnets_drawn",
    "PySC.C125_violated_multipoles"
   ],
   "note": "Proved for correctors, skew quadrupoles and BPMs (C125_correctors), which can be drawn if they have a length and the skew quadrupoles a gradient (C125_drawn), and for dipoles, quadrupoles, sextupoles and monitors (C125_magnets_partial), which can be drawn under the same condition (C125_magnets_drawn). Violated for other multipoles: they are drawn with the shape of a monitor, because the name of the shape is not passed on (C125_violated_multipoles). Colours, labels, axes and family names are not modelled."
  },
  {
   "property": "C126",
   "status": "proved",
   "theorems": [
    "PySC.C126_session",
    "PySC.C126_measurements"
   ],
   "note": ""
  },
  {
   "property": "C127",
   "status": "proved",
   "theorems": [
    "PySC.C127_reading",
    "PySC.C127_request",
    "PySC.C127_orbit_response",
    "PySC.C127_dispersion"
   ],
   "note": "response_matrix is not part of the claim: its step depends on all BPMs which are read."
  },
  {
   "property": "C128",
   "status": "proved",
   "theorems": [
    "PySC.C128_reading",
    "PySC.C128_orbit_response",
    "PySC.C128_dispersion",
    "PySC.C128_response_matrix"
   ],
   "note": "The mode PORB is not part of the claim for readings, dispersion and response matrix: there readings are averaged over turns and lost turns enter."
  },
  {
   "property": "C129",
   "status": "partial",
   "theorems": [
    "PySC.C129_single_step",
    "PySC.C129_same_steps_partial",
    "PySC.C129_balance_partial",
    "PySC.C129_violated_stop",
    "PySC.C129_violated_first_turn"
   ],
   "note": "The code violates the claim for more than one step: the criterion for stopping uses the readings, not their deviations from the target, so that one correction may stop or fail where the other goes on (C129_violated_stop). In first_turn BPMs without beam count as reading zero whatever the target (C129_violated_first_turn). Proved: a correction with one step, and equality of all steps as far as both corrections go, for correct and balance."
  },
  {
   "property": "C130",
   "status": "partial",
   "theorems": [
    "PySC.C130_options_partial",
    "PySC.C130_last_given_partial",
    "PySC.C130_violated_false_flag"
   ],
   "note": "The code violates the claim for the flag CF: its value is not looked at, so that a magnet registered with CF=False is marked as a combined function magnet (C130_violated_false_flag). Proved, with 'CF given' in place of 'CF set': one call (C130_options_partial) and every sequence of successful calls (C130_last_given_partial)."
  },
  {
   "property": "C131",
   "status": "proved",
   "theorems": [
    "PySC.C131_given_limit",
    "PySC.C131_one_plane",
    "PySC.C131_skew_quadrupoles"
   ],
   "note": "Other ways to write the dipole component are not limited, see C10_order_zero_bypasses_limit."
  }
 ]
}