{"id": "C01", "title": "Registration keeps the index lists sorted, duplicate free and complete", "statement": "After any sequence of register_bpms / register_cavities / register_magnets calls (successful or failing), SC.ORD.BPM, ORD.RF, ORD.Magnet, ORD.HCM, ORD.VCM and ORD.SkewQuad are strictly increasing, and after a successful call each list is exactly the union of what it held before and the ordinates passed for that role.", "quantifier": "all rings, all starting SC objects with strictly increasing lists, all lists of ordinates (any order, with repetitions), all keyword sets, all call sequences", "why_tests_cant": "Tests register a handful of ordinates once; the claim is about every history of overlapping, repeated and out of order registrations.", "anchors": ["pySC/core/simulated_commissioning.py:register_bpms", "pySC/core/simulated_commissioning.py:register_cavities", "pySC/core/simulated_commissioning.py:register_magnets", "pySC/core/classes.py:Indices"]}
{"id": "C02", "title": "A rejected registration changes nothing", "statement": "If register_bpms, register_cavities, register_magnets or register_supports is called with a keyword that is not an allowed error or option name (or register_supports with an unknown support type, an empty list or a list without two rows) it raises ValueError and the whole SC object is as it was before the call.", "quantifier": "all SC objects, all ordinate arrays, all keyword sets containing at least one unknown name", "why_tests_cant": "Tests check that an exception is raised for one bad name, not that no field of SC moved for every bad input.", "anchors": ["pySC/core/simulated_commissioning.py:_check_kwargs", "pySC/core/simulated_commissioning.py:register_bpms", "pySC/core/simulated_commissioning.py:register_cavities", "pySC/core/simulated_commissioning.py:register_magnets", "pySC/core/simulated_commissioning.py:register_supports"]}
{"id": "C03", "title": "Uncertainties merge per element, the newest value winning", "statement": "After a successful registration every given ordinate has exactly one entry in the matching SC.SIG dictionary, holding the newly given uncertainties and, for names not given this time, the previously registered ones; entries of ordinates not mentioned are unchanged, and only actual uncertainty names are stored (HCM, VCM, CF, SkewQuad and MasterOf are never stored as uncertainties).", "quantifier": "all SC objects, all ordinate lists, all keyword sets, all names looked up afterwards", "why_tests_cant": "Needs every overlap pattern between successive registrations.", "anchors": ["pySC/core/simulated_commissioning.py:register_bpms", "pySC/core/simulated_commissioning.py:register_cavities", "pySC/core/simulated_commissioning.py:register_magnets"]}
{"id": "C04", "title": "A fresh registration does not change the machine", "statement": "Registering BPMs, cavities or magnets never changes the fields the tracking code sees: PolynomA/PolynomB, Frequency, Voltage and TimeLag and every other attribute of the lattice keep their values, except the bookkeeping attributes introduced by the registration itself (set-points, error fields, limits; T1/T2 are reset to no displacement), and a following update_magnets / update_cavities with no errors applied succeeds and reproduces the multipoles and cavity fields exactly.", "quantifier": "all rings, all magnets with arbitrary multipole content of arbitrary length, all cavities", "why_tests_cant": "Ranges over all multipole vectors and lengths.", "anchors": ["pySC/core/simulated_commissioning.py:register_magnets", "pySC/core/simulated_commissioning.py:register_cavities", "pySC/core/simulated_commissioning.py:update_magnets", "pySC/core/simulated_commissioning.py:update_cavities", "pySC/core/simulated_commissioning.py:_update_magnets"]}
{"id": "C05", "title": "Support registration: pairs form a sorted set", "statement": "After register_supports the columns of SC.ORD.<type> are pairwise different, sorted by end ordinate and then start ordinate, and are exactly the union of the columns held before and the columns given; the other two support types and all other lists are unchanged.", "quantifier": "all previous column arrays, all given 2 x n arrays with n >= 1 (in any order, with repetitions)", "why_tests_cant": "Sorting and deduplication must be right for every pair array, not a sample.", "anchors": ["pySC/core/simulated_commissioning.py:register_supports", "pySC/utils/classdef_tools.py:update_double_ordinates"]}
{"id": "C06", "title": "Registering one support type keeps the uncertainties of the others", "statement": "register_supports for one type must not lose uncertainties registered for another support type at a shared start or end element.", "quantifier": "all SC objects and all registration sequences", "why_tests_cant": "Only visible for particular interleavings of types on shared marker elements.", "anchors": ["pySC/core/simulated_commissioning.py:register_supports"]}
{"id": "C07", "title": "The design lattice is never modified", "statement": "No sequence of registrations, apply_errors, update and set-point calls changes any attribute of any element of SC.IDEALRING, also when a call raises.", "quantifier": "all call sequences with all arguments, from every SC object, including calls ending in an exception", "why_tests_cant": "Quantifies over every history.", "anchors": ["pySC/core/simulated_commissioning.py"]}
{"id": "C08", "title": "very_deep_copy returns an independent equal copy", "statement": "very_deep_copy returns an SC object whose RING, IDEALRING, INJ, SIG and ORD equal those of the original, and leaves the original as it is.", "quantifier": "all SC objects", "why_tests_cant": "A test on an SC without errors has RING equal to IDEALRING and cannot see a mix-up.", "anchors": ["pySC/core/simulated_commissioning.py:very_deep_copy"]}
{"id": "C09", "title": "Corrector write-read round trip", "statement": "After set_cm_setpoints(ords, values, skewness, 'abs') with distinct ordinates, get_cm_setpoints(ords, skewness) returns for each corrector the requested kick, or the limit with the sign of the request if its magnitude exceeds CMlimit, in both planes, for CorrectorPass and for multipole type correctors with nonzero length.", "quantifier": "all SC objects, all distinct registered corrector ordinates, all requested values, both planes, finite and infinite limits", "why_tests_cant": "All sign, plane, pass-method, length and limit combinations.", "anchors": ["pySC/core/simulated_commissioning.py:set_cm_setpoints", "pySC/core/simulated_commissioning.py:get_cm_setpoints"]}
{"id": "C10", "title": "Corrector limits hold through every history", "statement": "If every corrector kick is within its limit, it is still so after any sequence of set_cm_setpoints calls (all methods, both planes), also when a call raises part way through.", "quantifier": "all call sequences, all values, all methods", "why_tests_cant": "Invariant over unbounded histories.", "anchors": ["pySC/core/simulated_commissioning.py:set_cm_setpoints"]}
{"id": "C11", "title": "Meaning of abs, rel and add", "statement": "For correctors 'rel' multiplies the present kick and 'add' adds to it; for set_magnet_setpoints 'rel' multiplies the nominal (design) field and is therefore idempotent while 'add' adds to the present set-point; for cavities 'rel' multiplies the present set-point and 'add' adds to it. Exactly the addressed multipole order of the addressed letter (or cavity field) of the addressed ordinates changes among the set-points.", "quantifier": "all SC objects, ordinates, values, orders, letters and cavity fields", "why_tests_cant": "Formula plus frame condition over all inputs.", "anchors": ["pySC/core/simulated_commissioning.py:set_cm_setpoints", "pySC/core/simulated_commissioning.py:set_magnet_setpoints", "pySC/core/simulated_commissioning.py:set_cavity_setpoints"]}
{"id": "C12", "title": "Bad set-point requests are rejected before any change", "statement": "set_cm_setpoints, set_magnet_setpoints and set_cavity_setpoints raise ValueError and leave SC unchanged when the method is not abs/rel/add or the number of values is neither one nor the number of ordinates; otherwise a single value is used for all ordinates. An unknown cavity field is rejected without any change in a 'rel' or 'add' request.", "quantifier": "all SC objects, all method strings, all ordinate and value lists", "why_tests_cant": "All length combinations and all strings.", "anchors": ["pySC/utils/classdef_tools.py:check_input_and_setpoints", "pySC/core/simulated_commissioning.py:set_cm_setpoints", "pySC/core/simulated_commissioning.py:set_magnet_setpoints", "pySC/core/simulated_commissioning.py:set_cavity_setpoints"]}
{"id": "C13", "title": "Realised magnet field formula", "statement": "After update_magnets every registered stand-alone magnet has multipoles SetPoint*(1+CalError) + Offset + sum over excited orders of systematic-error table times realised main field, plus BendingAngleError*BendingAngle/Length and, for combined-function magnets, (SetPointB[1]*(1+CalErrorB[1])/NomPolynomB[1]-1)*BendingAngle/Length on the dipole term; for CorrectorPass the KickAngle equals the two dipole terms; MaxOrder is the last index; all other attributes and elements are unchanged.", "quantifier": "all rings, multipole vectors of any length, all error values", "why_tests_cant": "Formula over all vectors, with padding; a test evaluates single numbers.", "anchors": ["pySC/core/simulated_commissioning.py:update_magnets", "pySC/core/simulated_commissioning.py:_update_magnets", "pySC/utils/classdef_tools.py:add_padded"]}
{"id": "C14", "title": "update_magnets and update_cavities are idempotent", "statement": "Calling update_magnets (or update_cavities) twice gives exactly the same ring as calling it once: errors are not compounded.", "quantifier": "all rings, all ordinate lists with repetitions, master/child structures included", "why_tests_cant": "Any hidden read of a written attribute would compound errors only in certain states.", "anchors": ["pySC/core/simulated_commissioning.py:update_magnets", "pySC/core/simulated_commissioning.py:update_cavities"]}
{"id": "C15", "title": "Skew quadrupole limit", "statement": "set_magnet_setpoints for order 1 skew never stores a set-point above SkewQuadLimit in magnitude; requests within the limit are stored exactly; elements without a limit are not clipped.", "quantifier": "all SC objects, values and methods", "why_tests_cant": "All values and methods.", "anchors": ["pySC/core/simulated_commissioning.py:set_magnet_setpoints"]}
{"id": "C16", "title": "Integer valued requests", "statement": "A set-point request written with integer numbers has the same effect as the same request written with floating point numbers.", "quantifier": "all set-point calls with integer valued arguments", "why_tests_cant": "dtype dependent behaviour appears only with particular argument types and stored values.", "anchors": ["pySC/utils/classdef_tools.py:check_input_and_setpoints", "pySC/core/simulated_commissioning.py:set_cm_setpoints", "pySC/core/simulated_commissioning.py:set_magnet_setpoints", "pySC/core/simulated_commissioning.py:set_cavity_setpoints"]}
{"id": "C17", "title": "Repeated ordinates in one request", "statement": "If an ordinate appears several times in one 'add' request, set_cm_setpoints accumulates all its values whereas set_magnet_setpoints and set_cavity_setpoints apply only the last one.", "quantifier": "all ordinate lists with repetitions", "why_tests_cant": "Repetition patterns are unbounded.", "anchors": ["pySC/core/simulated_commissioning.py:set_cm_setpoints", "pySC/core/simulated_commissioning.py:set_magnet_setpoints", "pySC/core/simulated_commissioning.py:set_cavity_setpoints"]}
{"id": "C18", "title": "Dipole compensation moves the horizontal corrector by the matching angle and is undone by going back", "statement": "Changing the normal quadrupole set-point of a combined-function magnet that is also a horizontal corrector with dipole_compensation=True changes its kick by (new-old)/nominal*BendingAngle (before clipping); changing the quadrupole back restores the kick if no limit was hit; other elements and elements without bending angle are not compensated.", "quantifier": "all SC objects, magnets and values", "why_tests_cant": "Equality for all values and histories of two calls.", "anchors": ["pySC/core/simulated_commissioning.py:set_magnet_setpoints", "pySC/core/simulated_commissioning.py:_dipole_compensation"]}
{"id": "C19", "title": "Stepping a corrector forth and back restores it unless it was clipped", "statement": "set_cm_setpoints(o, d, s, 'add') followed by set_cm_setpoints(o, -d, s, 'add') restores the set-point of every corrector exactly when no limit was hit on the way; with a hit limit the final value differs.", "quantifier": "all SC objects, ordinates, steps", "why_tests_cant": "Interaction with limits for all values.", "anchors": ["pySC/core/simulated_commissioning.py:set_cm_setpoints", "pySC/correction/loco.py:measure_closed_orbit_response_matrix"]}
{"id": "C20", "title": "Errors are truncated at the requested number of sigmas", "statement": "randnc returns only values with magnitude at most |cut_off|, in the requested number, each being one of the generator's draws; hence every error apply_errors gives to a cavity, BPM or magnet is at most cut-off times the registered sigma in magnitude (cut-off given per field or by the nsigmas argument), as is the roll of a support about the beam axis; nothing without registered uncertainty gets an error.", "quantifier": "all random streams, all shapes, all cut-offs, all registered sigmas", "why_tests_cant": "A statement about every random sequence.", "anchors": ["pySC/utils/sc_tools.py:randnc", "pySC/utils/classdef_tools.py:randn_cutoff", "pySC/core/simulated_commissioning.py:apply_errors"]}
{"id": "C21", "title": "Injection errors", "statement": "After apply_errors |Z0 - Z0ideal| <= nsigmas*staticInjectionZ componentwise, randomInjectionZ equals the registered jitter, and Z0ideal, trackMode, nTurns, nShots, nParticles are unchanged; repeating apply_errors does not let the injection error grow.", "quantifier": "all SC objects and random streams, any number of repetitions", "why_tests_cant": "All random draws and repetitions.", "anchors": ["pySC/core/simulated_commissioning.py:apply_errors"]}
{"id": "C22", "title": "Circumference scaling", "statement": "scale_circumference(ring, c, 'rel') gives a ring of circumference c times the old one and 'abs' a ring of circumference c, by rescaling the drifts by one common factor and changing nothing else, provided the drifts have nonzero total length; an unknown mode raises ValueError.", "quantifier": "all rings with nonzero total drift length, all c", "why_tests_cant": "Algebraic identity over all element lists.", "anchors": ["pySC/utils/sc_tools.py:scale_circumference"]}
{"id": "C23", "title": "Without uncertainties apply_errors leaves a perfect machine", "statement": "If no uncertainties are registered (or all are zero), apply_errors leaves multipoles, RF settings, drift lengths, injection and BPM readings at their nominal values, puts all offsets and rolls of supported elements at zero and the coordinate transformations at identity.", "quantifier": "all rings, registrations and random streams", "why_tests_cant": "Every registered element and every random stream.", "anchors": ["pySC/core/simulated_commissioning.py:apply_errors", "pySC/core/simulated_commissioning.py:update_supports", "pySC/core/simulated_commissioning.py:update_magnets", "pySC/core/simulated_commissioning.py:update_cavities"]}
{"id": "C24", "title": "Applying errors again replaces the old errors", "statement": "A second apply_errors call replaces BPM, cavity, magnet and injection errors by new draws with the same bounds; it must not raise or accumulate.", "quantifier": "all SC objects, all random streams, any number of calls", "why_tests_cant": "History dependent.", "anchors": ["pySC/core/simulated_commissioning.py:apply_errors", "pySC/core/simulated_commissioning.py:_apply_support_alignment_error"]}
{"id": "C25", "title": "Support offsets are the straight line between the two ends", "statement": "For a support from start to end without wrap-around, the offset transferred to a point in between is the linear interpolation in s of the end offsets, equals the end offsets at the ends, points outside are untouched, and equal end offsets shift every supported point by that same amount.", "quantifier": "all s positions, supports and offsets", "why_tests_cant": "All interpolation points.", "anchors": ["pySC/utils/classdef_tools.py:s_interpolation", "pySC/core/simulated_commissioning.py:support_offset_and_roll"]}
{"id": "C26", "title": "Supports across the ring origin", "statement": "A support whose end ordinate is smaller than its start ordinate acts on the elements after start and before end only: offsets interpolate through the origin, and its roll is transferred to exactly these elements.", "quantifier": "all wrap-around supports and all rings", "why_tests_cant": "Boundary case absent from the tests.", "anchors": ["pySC/utils/classdef_tools.py:s_interpolation", "pySC/core/simulated_commissioning.py:support_offset_and_roll"]}
{"id": "C27", "title": "Pitch and yaw of a support", "statement": "apply_errors makes pitch and yaw of each support consistent with its end offsets: pitch*length equals the vertical offset difference and yaw*length the horizontal one, both when drawn through end offsets and when drawn through roll angles.", "quantifier": "all supports, all draws", "why_tests_cant": "All random draws and both ways of specifying.", "anchors": ["pySC/core/simulated_commissioning.py:_apply_support_alignment_error"]}
{"id": "C28", "title": "Each end of a support uses its own uncertainty", "statement": "When different uncertainties are registered for the two ends of a support, the error of each end is bounded by cut-off times its own sigma.", "quantifier": "all supports and draws", "why_tests_cant": "All draws.", "anchors": ["pySC/core/simulated_commissioning.py:register_supports", "pySC/core/simulated_commissioning.py:_apply_support_alignment_error"]}
{"id": "C29", "title": "Elements on a girder move with the girder", "statement": "Every element located between the ends of a girder receives the interpolated girder offset, also when several zero-length elements share an s position.", "quantifier": "all rings and support layouts", "why_tests_cant": "Depends on coincidences of s positions.", "anchors": ["pySC/core/simulated_commissioning.py:support_offset_and_roll", "pySC/core/simulated_commissioning.py:update_supports"]}
{"id": "C30", "title": "Alignment transformations describe the rigid motion of the element", "statement": "rotation() is the product of the elementary rotations, orthogonal with determinant one for all angles. The translations and matrices which update_transformation stores are those of the rigidly displaced element: a particle moving parallel to the axis gets at the entrance exactly the coordinates of its path in the entrance plane of the displaced element, and at the exit those in the design exit plane; momenta of all particles are projected onto the new axes; the matrices are symplectic. Zero offsets and rolls give zero translations and identity matrices for every bending angle and length; a straight element displaced sideways gives T1 = -offset, T2 = +offset; the exit of a rolled straight element undoes its entrance.", "quantifier": "all angles, lengths, bending angles, offsets (real numbers), all particles", "why_tests_cant": "Identities over the reals in nine parameters.", "anchors": ["pySC/utils/sc_tools.py:rotation", "pySC/utils/sc_tools.py:update_transformation"]}
{"id": "C31", "title": "Cavity and radiation switching", "statement": "switch_cavity_and_radiation rejects unknown words before changing anything, changes only pass methods of the relevant elements, is idempotent, lets '...off' win over '...on' semantics as documented, and switching radiation on and off again restores the pass methods of elements that had radiation off.", "quantifier": "all rings and all argument strings", "why_tests_cant": "All pass-method strings and element mixes.", "anchors": ["pySC/core/lattice_setting.py:switch_cavity_and_radiation", "pySC/core/lattice_setting.py:switch_rf"]}
{"id": "C32", "title": "Tracking mode setter", "statement": "Assigning an unknown tracking mode raises and keeps the old mode; assigning 'ORB' sets nTurns = nParticles = 1; after any sequence of assignments the mode is one of the allowed ones.", "quantifier": "all assignment sequences", "why_tests_cant": "All histories.", "anchors": ["pySC/core/classes.py:Injection"]}
{"id": "C33", "title": "BPM reading formula and order", "statement": "The reading of each BPM and turn is (rotated beam position - offset - support offset)*(1+calibration error) plus noise divided by transmission, columns appear turn by turn and within a turn in ring order of registered BPMs irrespective of the order requested, unregistered ordinates are ignored and a request without any registered BPM raises ValueError; with no errors the reading is the true beam position.", "quantifier": "all numbers of BPMs, turns, shots and all beam positions", "why_tests_cant": "All index combinations.", "anchors": ["pySC/core/beam.py:bpm_reading", "pySC/core/beam.py:_real_bpm_reading", "pySC/core/beam.py:_only_registered_bpms", "pySC/core/beam.py:_reshape_3d_to_matlab_like_2d"]}
{"id": "C34", "title": "Lost beam gives NaN, never a number, and both planes agree", "statement": "If at a BPM and turn the sum signal (the surviving fraction, scaled by the BPM's sum error) is below 1-beamLostAt in every shot, the reading is NaN in both planes; a reading that is a number comes only from shots with enough surviving particles and lies between the readings of these shots; shots without beam do not bias the average.", "quantifier": "all particle distributions, shots, turns, beamLostAt", "why_tests_cant": "All loss patterns.", "anchors": ["pySC/core/beam.py:_real_bpm_reading", "pySC/core/beam.py:bpm_reading"]}
{"id": "C35", "title": "beam_transmission", "statement": "beam_transmission returns a number of turns between 0 and nTurns, a survival fraction in [0,1] per turn which is non-increasing when lost particles stay lost, and the number of turns counts exactly the leading turns in which more than 1-beamLostAt survive.", "quantifier": "all tracking results", "why_tests_cant": "All loss patterns.", "anchors": ["pySC/core/beam.py:beam_transmission"]}
{"id": "C36", "title": "Injected bunches have the requested second moments", "statement": "The linear map applied by generate_bunches to independent unit normal draws has covariance beamSize, and a single particle starts at Z0 plus jitter bounded by the generator's draw times randomInjectionZ.", "quantifier": "all positive semidefinite beamSize matrices with eigen-decomposition as returned by eigh/eig", "why_tests_cant": "All matrices; tests use diagonal ones.", "anchors": ["pySC/core/beam.py:generate_bunches"]}
{"id": "C37", "title": "first_turn: bounded, honest", "statement": "first_turn performs at most maxsteps correction steps. Each step steers just the given correctors upstream of the last BPM reached, by the pseudo-inverse applied to the readings, within the corrector limits; only if the last 20 readings reached equally far may a search (wiggling) change given correctors in between, and it must then have found a reading which reaches further. It returns normally only if the beam reached every BPM in the last five readings; otherwise it raises. Whatever the outcome, nothing but set-points and fields of the given correctors changes, and without any beam at the BPMs not even those.", "quantifier": "all machine responses (every sequence of readings), all correctors, BPMs, maxsteps", "why_tests_cant": "Quantifies over all reading sequences.", "anchors": ["pySC/correction/orbit_trajectory.py:first_turn", "pySC/correction/orbit_trajectory.py:_is_repro", "pySC/correction/orbit_trajectory.py:_get_last_cm"]}
{"id": "C38", "title": "correct: bounded, honest", "statement": "correct performs at most maxsteps corrections; each steers the given correctors (and, with scaleDisp, the frequency of the cavities) by the pseudo-inverse applied to the readings, within the limits. It returns normally only with full transmission in all readings after a correction, and (unless just one step was allowed) if the coefficient of variation of the root mean square readings is below eps, as documented; it raises when the beam is lost or the orbit is neither stable nor converged after maxsteps. Whatever the outcome nothing but the given correctors (and cavity frequencies with scaleDisp) changes.", "quantifier": "all machine responses, all maxsteps", "why_tests_cant": "All reading sequences.", "anchors": ["pySC/correction/orbit_trajectory.py:correct", "pySC/correction/orbit_trajectory.py:_is_stable_or_converged"]}
{"id": "C39", "title": "stitch and balance: bounded, honest", "statement": "stitch and balance perform at most maxsteps corrections (stitch possibly after an initial search for transmission in the second turn), each of which steers the given correctors by the pseudo-inverse applied to the first turn and the difference of the two turns, within the limits. They return normally only if the beam reached every BPM in both turns in the last five readings (balance: in all readings, with readings varying by less than eps); a loss of transmission on the way is reported by an exception; they refuse to start without the required transmission or with another number of turns than two; whatever the outcome, nothing but the given correctors changes.", "quantifier": "all machine responses, all maxsteps", "why_tests_cant": "All reading sequences.", "anchors": ["pySC/correction/orbit_trajectory.py:stitch", "pySC/correction/orbit_trajectory.py:balance"]}
{"id": "C40", "title": "Selection of correctors upstream of the beam loss", "statement": "The selection of the last n correctors: if the beam is lost in the first turn, the last n (or all, if fewer) of the given correctors which are not after the last BPM reached are returned together with their positions in the list, and RuntimeError is raised just if there are none; if the beam survives the first turn, the last n (or all) correctors are returned with their positions.", "quantifier": "all increasing ordinate lists, all n", "why_tests_cant": "All interleavings of BPMs and correctors.", "anchors": ["pySC/correction/orbit_trajectory.py:_get_last_cm"]}
{"id": "C41", "title": "BBA offsets are applied only where the measurement was good", "statement": "apply_bpm_offsets adds the measured offset to exactly the BPM/plane entries whose measurement is not flagged by is_bba_errored and leaves every other BPM, plane and attribute as it was.", "quantifier": "all measurement tables", "why_tests_cant": "All flag patterns.", "anchors": ["pySC/correction/bba.py:apply_bpm_offsets", "pySC/correction/bba.py:is_bba_errored"]}
{"id": "C42", "title": "fake_bba centres the flagged BPMs on their magnets", "statement": "After fake_bba the offset of each flagged BPM relative to the paired magnet is at most twice the requested fake_offset in magnitude; unflagged BPM planes are unchanged.", "quantifier": "all flag patterns, offsets and random streams", "why_tests_cant": "All random draws.", "anchors": ["pySC/correction/bba.py:fake_bba", "pySC/correction/bba.py:_get_bpm_offset_from_mag"]}
{"id": "C43", "title": "BBA measurement leaves no trace", "statement": "The trajectory BBA measurement restores the injection (coordinates and number of turns), all magnet set-points and everything else but the offsets of the BPMs it aligns. Scaling the injection to reach the BPMs restores it as well and returns a factor 0.8^k with k <= 19 for which the beam is seen at all BPMs up to the last one in both directions, or 0.8^20 with zero ranges (and a warning).", "quantifier": "all machine responses", "why_tests_cant": "All reading sequences.", "anchors": ["pySC/correction/bba.py:_data_measurement_tbt", "pySC/correction/bba.py:_scale_injection_to_reach_bpms"]}
{"id": "C44", "title": "RF phase folding", "statement": "_fold_phase maps every phase into (-lambda/2, lambda/2], changes it by a whole number of periods, and is idempotent.", "quantifier": "all real phases, all positive lambda", "why_tests_cant": "All reals.", "anchors": ["pySC/correction/rf.py:_fold_phase"]}
{"id": "C45", "title": "RF corrections end at start plus reported shift", "statement": "When correct_rf_frequency or correct_rf_phase returns, the set-point of each cavity is its value before the call plus one and the same shift, its field follows, and nothing else has changed. The shift is the zero crossing of the function fitted to the slopes measured during the scan (a straight line which is the best fit, or a sine), folded to at most half a wave length for the phase; zero if the measured frequency slope is not significant. If the call raises, every set-point is as before the call.", "quantifier": "all rings, cavities and BPMs, all scan settings, all readings the beam may produce at each step", "why_tests_cant": "All reading sequences.", "anchors": ["pySC/correction/rf.py:correct_rf_phase", "pySC/correction/rf.py:correct_rf_frequency", "pySC/correction/rf.py:_get_tbt_energy_shift", "pySC/correction/rf.py:_check_data"]}
{"id": "C46", "title": "tune_scan", "statement": "If tune_scan returns, the two quadrupole families are set to their nominal strengths times the returned factors, whatever they were set to before, and no other set-point has changed. The factors belong to the first visited grid point at which the target is reached, otherwise to the one with the best transmission, or without any transmission in the last turn with the most turns; every result was measured with the quadrupoles set according to its grid point. The scan starts at the centre of the grid and only asks for grid points that exist. If it fails the quadrupoles are what they were.", "quantifier": "all grids and all machine responses", "why_tests_cant": "All grid sizes and responses.", "anchors": ["pySC/correction/tune.py:tune_scan", "pySC/correction/tune.py:_golden_donut_inds"]}
{"id": "C47", "title": "Truncated pseudo-inverse", "statement": "pinv with no regularisation returns the Moore-Penrose inverse times the damping; with Tikhonov regularisation each singular value s is replaced by s/(s^2+alpha^2) and the smallest num_removed singular values are dropped (all of them if num_removed reaches their number).", "quantifier": "all real matrices given by a singular value decomposition", "why_tests_cant": "Matrix identity of every size.", "anchors": ["pySC/utils/sc_tools.py:pinv"]}
{"id": "C48", "title": "Padded addition", "statement": "add_padded returns the elementwise sum of two vectors padded with zeros to the longer length; it is commutative and associative, and rejects different dimensions.", "quantifier": "all vectors of all lengths", "why_tests_cant": "All lengths.", "anchors": ["pySC/utils/classdef_tools.py:add_padded"]}
{"id": "C49", "title": "Weighted statistics", "statement": "weighted_mean is the mean with the inverse squares of the errors as weights: it has the least sum of squared distances in units of the errors, lies between minimum and maximum of the data, is shifted with the data and does not depend on a common factor of the errors. Missing errors and errors that are zero or NaN lead to equal weights; missing data are left out together with their errors. effective_sample_size lies between 2 and the number of points and unbias_variance in (1, 2], with the textbook values for equal weights. The square of weighted_error is the unbiased weighted variance plus the variance expected from the errors; rms is the root of the mean square and not below the modulus of the mean.", "quantifier": "all data and error arrays", "why_tests_cant": "Inequalities over all reals.", "anchors": ["pySC/utils/stats.py:weighted_mean", "pySC/utils/stats.py:weighted_nanmean", "pySC/utils/stats.py:weighted_error", "pySC/utils/stats.py:weights_from_errors", "pySC/utils/stats.py:effective_sample_size", "pySC/utils/stats.py:unbias_variance", "pySC/utils/stats.py:rms", "pySC/utils/stats.py:weighted_rms"]}
{"id": "C50", "title": "Injection drift fit is exact for straight trajectories", "statement": "If the readings of the last BPM in the first turn and of the first BPM in the second turn lie on a straight line, fit_injection_drift proposes minus the position and angle of this line at the injection point as injection change, in both planes, and nothing in energy and phase. It changes nothing in the machine. If one of these readings is missing it raises and changes nothing.", "quantifier": "all lines and BPM positions", "why_tests_cant": "All reals.", "anchors": ["pySC/correction/injection_fit.py:fit_injection_drift"]}
{"id": "C51", "title": "Injection trajectory fit optimises the trajectory mismatch", "statement": "The merit minimised by fit_injection_trajectory vanishes if and only if the predicted trajectory equals the measured one at every BPM. Minus the minimum found is returned and added to the injected beam; energy, phase and the rest of the machine are unchanged, and nothing changes if the fit fails.", "quantifier": "all trajectories", "why_tests_cant": "All reals.", "anchors": ["pySC/correction/injection_fit.py:_merit_function", "pySC/correction/injection_fit.py:fit_injection_trajectory"]}
{"id": "C52", "title": "Model response matrix and dispersion", "statement": "Each column of SCgetModelRM is the finite difference between the trajectory (or orbit) in the lattice and in the lattice with one corrector, and nothing else, changed by the step, horizontal correctors first, rows ordered x before y and turn by turn; for a machine linear in the kicks it is exact for every step size. SCgetModelDispersion is the finite difference when the frequencies of the given cavities, and nothing else, are changed. With the ideal ring both leave SC unchanged, always succeed if the particle survives and refuse otherwise.", "quantifier": "all rings, correctors, step sizes and tracking functions", "why_tests_cant": "All tracking functions.", "anchors": ["pySC/lattice_properties/response_model.py:SCgetModelRM"]}
{"id": "C53", "title": "Building the model ring does not touch the machine", "statement": "SCgetModelRING returns the design lattice with the multipoles of the set-points without their dipole components and the RF set-points, and leaves SC unchanged.", "quantifier": "all SC objects", "why_tests_cant": "Aliasing is only visible when SC is inspected afterwards.", "anchors": ["pySC/lattice_properties/response_model.py:SCgetModelRING"]}
{"id": "C54", "title": "Measured responses leave the machine unchanged", "statement": "dispersion, measure_closed_orbit_response_matrix and response_matrix return finite differences of BPM readings, each column being the change of the reading divided by the change of one corrector's kick alone, and leave the machine exactly as before (apart from random numbers) if fields were up to date and no corrector limit is hit.", "quantifier": "all SC objects and machine responses", "why_tests_cant": "All readings.", "anchors": ["pySC/lattice_properties/response_measurement.py:dispersion", "pySC/lattice_properties/response_measurement.py:response_matrix", "pySC/correction/loco.py:measure_closed_orbit_response_matrix"]}
{"id": "C55", "title": "Aperture bisection", "statement": "The aperture search returns a radius for every angle: it widens the given bounds on their side of zero until the lower end survives and the upper one does not, halves the interval in each step keeping an alive lower and dead upper end, and ends with an interval not longer than the accuracy after finitely many steps; the area is that of the polygon of the radii.", "quantifier": "all survival predicates, start intervals and positive accuracies", "why_tests_cant": "Termination and invariant for all predicates.", "anchors": ["pySC/lattice_properties/apertures.py"]}
{"id": "C56", "title": "Systematic multipole errors", "statement": "set_systematic_multipole_errors stores for each magnet the columns of the given table with the main component removed (or scaled), so that column A acts on PolynomA and column B on PolynomB, and does not change the caller's table; with zero main field no systematic error acts.", "quantifier": "all tables, orders and magnets", "why_tests_cant": "All tables.", "anchors": ["pySC/core/simulated_commissioning.py:set_systematic_multipole_errors", "pySC/core/simulated_commissioning.py:_update_magnets"]}
{"id": "C57", "title": "Random multipole errors", "statement": "set_random_multipole_errors adds to PolynomAOffset/PolynomBOffset of each given magnet a vector bounded by 2 (cut-off) times the given table column; several calls accumulate and different lengths are zero padded.", "quantifier": "all tables, magnets, random streams", "why_tests_cant": "All draws.", "anchors": ["pySC/core/simulated_commissioning.py:set_random_multipole_errors"]}
{"id": "C58", "title": "LOCO parameter selection", "statement": "The LOCO fit uses exactly the requested groups of parameters (quadrupoles, correctors, BPMs) and returns one value for each of their parameters; its residual is linear in the parameters, so exact data of an independent set of parameters is recovered exactly; set_correction subtracts the fitted strengths from the given quadrupoles (or families of them) and changes nothing else; the beta beat is the rms of the relative deviation.", "quantifier": "all group lengths and selections, matrices, weights and machines", "why_tests_cant": "All sizes.", "anchors": ["pySC/correction/loco.py"]}
{"id": "C59", "title": "Equally spaced selection", "statement": "select_equally_spaced_elements returns a subsequence of the given elements, starting with the first and with constant index spacing, and of exactly the requested size.", "quantifier": "all arrays and sizes", "why_tests_cant": "All sizes.", "anchors": ["pySC/correction/loco.py:select_equally_spaced_elements"]}
{"id": "C60", "title": "Selecting elements by name", "statement": "ords_from_regex returns exactly the indices of the elements whose family name matches, in increasing order; intersect keeps exactly the primary entries contained in the secondary list.", "quantifier": "all rings and predicates, all lists", "why_tests_cant": "All lists.", "anchors": ["pySC/utils/sc_tools.py:ords_from_regex", "pySC/utils/classdef_tools.py:intersect"]}
{"id": "C61", "title": "DotDict", "statement": "Attribute and item access of the dictionaries used for SIG and ORD are interchangeable, for every name; reading an absent name as an attribute raises AttributeError, nested dictionaries given at construction are converted at every depth.", "quantifier": "all nested dictionaries and operation sequences", "why_tests_cant": "All nestings.", "anchors": ["pySC/core/classes.py:DotDict"]}
{"id": "C62", "title": "verify_structure rejects exactly the inconsistent machines", "statement": "verify_structure never modifies SC. It raises ValueError if plinths or sections are registered without girders, if a registered magnet has PolynomA/PolynomB, SetPoint/CalError or Polynom offsets of different lengths or is a combined function magnet without BendingAngle, or if the injection arrays have the wrong shape; for machines that carry the attributes registration provides it raises nothing else and accepts all others.", "quantifier": "all SC objects", "why_tests_cant": "All SC objects.", "anchors": ["pySC/core/simulated_commissioning.py:verify_structure"]}
{"id": "C63", "title": "Realised cavity fields", "statement": "After set_cavity_setpoints every addressed cavity has Voltage, Frequency and TimeLag equal to set-point times (1 + calibration error) plus offset.", "quantifier": "all SC objects, ordinate lists, values, fields and methods", "why_tests_cant": "Has to hold for every error setting and for every order of set-point calls.", "anchors": ["pySC/core/simulated_commissioning.py:update_cavities", "pySC/core/simulated_commissioning.py:set_cavity_setpoints"]}
{"id": "C64", "title": "Rolls and slopes of supports are passed on", "statement": "After apply_errors every registered magnet is rolled by the sum of the rolls of the supports it stands on and pitched and yawed like the topmost of them; a BPM is rolled likewise.", "quantifier": "all lattices, registered supports, uncertainties and random streams", "why_tests_cant": "Supports can be nested and laid out in any way; a test sees single layouts only.", "anchors": ["pySC/core/simulated_commissioning.py:update_supports", "pySC/core/simulated_commissioning.py:support_offset_and_roll"]}
{"id": "C65", "title": "Child magnets are placed like their master", "statement": "After apply_errors (or update_supports) every registered magnet carries the coordinate transformation belonging to the sum of support and magnet offsets and rolls, and the children of a master magnet carry the same transformation as their master.", "quantifier": "all lattices, registered magnets and their children, all errors", "why_tests_cant": "Must hold for every assignment of children and every order of registration.", "anchors": ["pySC/core/simulated_commissioning.py:update_supports", "pySC/utils/sc_tools.py:update_transformation"]}
{"id": "C66", "title": "Magnets follow the tilt of their support", "statement": "After apply_errors a magnet on a tilted support which has no angles of its own points along the support: the horizontal and vertical slopes of its axis have the sign of the slopes of the line between the ends of the support.", "quantifier": "all machines, supports, random streams", "why_tests_cant": "Depends on sign conventions of three functions together, for all supports.", "anchors": ["pySC/core/simulated_commissioning.py:support_offset_and_roll", "pySC/utils/sc_tools.py:update_transformation", "pySC/utils/sc_tools.py:rotation"]}
{"id": "C67", "title": "Records and machine stay consistent over every history", "statement": "After any sequence of calls of the API on a new SC object, also when calls raise: index lists are strictly increasing, correctors and skew quadrupoles are registered magnets, and uncertainties exist only for registered elements, once per name, and only with the documented names. If no call raised, every registered element is in the ring, has an entry among the uncertainties and carries all attributes of its kind (including both ends of each support and the limits of correctors).", "quantifier": "all call sequences with all arguments, all lattices, random numbers and tracking results", "why_tests_cant": "Quantifies over every history of calls.", "anchors": ["pySC/core/simulated_commissioning.py", "pySC/core/classes.py", "pySC/correction/orbit_trajectory.py", "pySC/core/beam.py"]}
{"id": "C68", "title": "Design data of magnets are written only by registration, and are the design", "statement": "NomPolynomA/B, CMlimit, SkewQuadLimit, MasterOf, CombinedFunction and BendingAngle of any element change in no call but register_magnets; and the nominal polynomials of registered magnets are those of the design lattice IDEALRING.", "quantifier": "all call sequences with all arguments, all lattices", "why_tests_cant": "Quantifies over every history of calls; re-registration after errors is an order tests do not try.", "anchors": ["pySC/core/simulated_commissioning.py:register_magnets", "pySC/core/simulated_commissioning.py:apply_errors"]}
{"id": "C69", "title": "Phase and energy error", "statement": "phase_and_energy_error reports the difference of the injected energy to that of the closed orbit, and the distance between closed orbit and injected beam in degrees of the RF wave length, up to whole turns.", "quantifier": "all machines, all closed orbits and injected beams", "why_tests_cant": "All reals; wrong only for some wave lengths and distances.", "anchors": ["pySC/correction/rf.py:phase_and_energy_error", "pySC/correction/rf.py:_fold_phase"]}
{"id": "C70", "title": "Circular statistics", "statement": "circular_mean lies within half a period of zero, does not depend on whole periods in the data, is shifted with the data up to whole periods, returns the common value of data that agree up to whole periods and the midpoint of two points less than half a period apart. circular_error is between zero and 0.3 periods; for data that agree up to whole periods it is the weighted_error of equal data, if that is below a quarter of a period. circular_rms of a single value is its distance from zero on the circle.", "quantifier": "all data, errors and periods", "why_tests_cant": "Identities over the reals, with phases that wrap around.", "anchors": ["pySC/utils/stats.py:circular_mean", "pySC/utils/stats.py:circular_error", "pySC/utils/stats.py:circular_rms"]}
{"id": "C71", "title": "BBA evaluation finds the centre of the magnet", "statement": "If the readings downstream change with the strength of the magnet in proportion to the distance of the beam from its centre, the linear evaluation returns exactly that centre as seen by the BPM, whichever readings are missing; measurements without a significant effect give no offset and do not disturb the other BPMs.", "quantifier": "all data tables, responses, strengths, noise and missing readings", "why_tests_cant": "All data tables and patterns of missing readings.", "anchors": ["pySC/correction/bba.py:_data_evaluation", "pySC/correction/bba.py:trajectory_bba"]}
{"id": "C72", "title": "Fields follow the set-points: no hysteresis", "statement": "If no element of the lattice gets its field from two registered magnets, then after update_magnets() has been called once, the fields (PolynomA, PolynomB, MaxOrder, KickAngle) stay up to date through every sequence of successful set_cm_setpoints, set_magnet_setpoints and update_magnets calls on registered magnets: another update_magnets of any magnet would change nothing. Hence the fields depend on the set-points alone, not on the way they were reached: two histories that end with equal set-points end with equal lattices, and setting correctors to other values and back leaves no trace at all.", "quantifier": "all lattices, all registrations, all errors, all sequences of set-point calls", "why_tests_cant": "A test can only compare a few histories; that the fields are a function of the set-points is a claim about all pairs of histories.", "anchors": ["pySC/core/simulated_commissioning.py: set_cm_setpoints, set_magnet_setpoints, update_magnets, _update_magnets"]}
{"id": "C73", "title": "LOCO Jacobian", "statement": "calculate_jacobian returns, for every quadrupole in the given order, the change of the model response matrix per change of this one strength, followed by the derivatives with respect to the gains of correctors and BPMs; with dispersion included also its change; the machine is left alone and the result does not depend on how the quadrupoles are distributed over processes.", "quantifier": "all machines, lists of quadrupoles, correctors and BPMs, strengths and distributions over processes", "why_tests_cant": "The distribution over processes depends on the computer; every machine and every list.", "anchors": ["pySC/correction/loco.py:calculate_jacobian", "pySC/correction/loco.py:generating_quads_response_matrices"]}
{"id": "C74", "title": "Chromaticity and tune fits", "statement": "fit_chroma and fit_tune change the set-points of the given families by one number per family, the solution found by the minimiser, and change nothing else; a target which is not a number is refused.", "quantifier": "all machines, families, targets and minimisers", "why_tests_cant": "Every minimiser and every machine; the existing test passes because the last point tried happens to be close to the solution and only the chromaticity is compared.", "anchors": ["pySC/correction/chroma.py:fit_chroma", "pySC/correction/tune.py:fit_tune"]}
{"id": "C75", "title": "Reading of all elements", "statement": "all_elements_reading returns, for every shot, the true positions of all particles of this shot's bunch at the entrance of every element and at the end of the ring, in every turn, with lost particles as NaN in both planes, and the BPM readings averaged over the shots; BPM errors and noise affect only the BPM readings. Only random numbers are consumed. The BPM readings are those which bpm_reading would report for the same machine and the same random numbers.", "quantifier": "all machines, injection settings, numbers of shots, turns and particles, random numbers and tracking results", "why_tests_cant": "Tests can compare a few readings; which random numbers and which shot a value belongs to must be right for every setting.", "anchors": ["pySC/core/beam.py:all_elements_reading"]}
{"id": "C76", "title": "Requests in order are accepted at any time", "statement": "After register_magnets and register_cavities of ordinary lattice elements, with uncertainties which fit them, every well-formed request is accepted without an exception: set-points of correctors, of existing components of magnets and of cavities (any method, one value or one per element), reading of corrector set-points, and updates of fields. This stays so through every session: any number of calls which operate the machine and of apply_errors, in any order, successful or failing.", "quantifier": "all machines of registered elements, all requests, all sessions including failing calls and all random numbers", "why_tests_cant": "Whether a call can fail depends on the whole history of the machine; tests try a few histories and only successful calls.", "anchors": ["pySC/core/simulated_commissioning.py:SimulatedCommissioning.set_cm_setpoints", "pySC/core/simulated_commissioning.py:SimulatedCommissioning.get_cm_setpoints", "pySC/core/simulated_commissioning.py:SimulatedCommissioning.set_magnet_setpoints", "pySC/core/simulated_commissioning.py:SimulatedCommissioning.set_cavity_setpoints", "pySC/core/simulated_commissioning.py:SimulatedCommissioning.update_magnets", "pySC/core/simulated_commissioning.py:SimulatedCommissioning.update_cavities", "pySC/core/simulated_commissioning.py:SimulatedCommissioning.apply_errors", "pySC/core/simulated_commissioning.py:SimulatedCommissioning.register_magnets", "pySC/core/simulated_commissioning.py:SimulatedCommissioning.register_cavities"]}
{"id": "C77", "title": "The functions named as in the Matlab toolkit follow its conventions", "statement": "SCsetCMs2SetPoints and SCgetCMSetPoints (plane 1 horizontal, 2 vertical) set and return the kicks, clipped to the limits; SCsetMags2SetPoints counts multipoles from one with type 1 skew; other planes and types are refused before anything changes; SCsetMultipoles takes skew amplitudes from the first column and normal ones from the second; SCfeedbackFirstTurn/Stitch/Balance/Run given the pseudo-inverse do what the native functions do with the response matrix; SCgetTransformation describes the moved and turned element; the synchronous phase and energy corrections run with their own number of turns and restore it; SCfitInjectionZ is one of the two native injection corrections and refuses other modes; SCBBA and SCpseudoBBA obey their arguments.", "quantifier": "all machine states, ordinates, values, planes, types, orders, tables, offsets and angles", "why_tests_cant": "A wrong index convention goes unnoticed on symmetric test inputs; agreement with the native functions must hold for every argument and every machine.", "anchors": ["pySC/matlab_index.py: SCBBA, SCfeedbackBalance, SCfeedbackFirstTurn, SCfeedbackRun, SCfeedbackStitch, SCfitInjectionZ, SCgetCMSetPoints, SCgetTransformation, SCpseudoBBA, SCsetCMs2SetPoints, SCsetMags2SetPoints, SCsetMultipoles, SCsynchEnergyCorrection, SCsynchPhaseCorrection"]}
{"id": "C78", "title": "Orbit-based alignment can be completed", "statement": "Given BPMs, magnets and a response-matrix structure, orbit_bba measures the magnet offsets with closed-orbit bumps and writes them to the BPM offsets; a call which fails leaves the machine as it was.", "quantifier": "all machines, BPM and magnet tables, response-matrix structures and options", "why_tests_cant": "That no argument whatever lets the function complete can not be established by trying some of them.", "anchors": ["pySC/correction/bba.py: orbit_bba, _get_orbit_bump", "pySC/matlab_index.py: SCBBA"]}
{"id": "C79", "title": "The lattice correction with a LOCO fit reaches the wanted gradients", "statement": "apply_lattice_correction sets every fitted quadrupole component to its old set-point plus the damped deviation of the fitted from the wanted value (within the limit of skew quadrupoles; the last group counts), and no other set-point except the dipole compensation of fitted magnets; if the fit found the true gradient, the deviation from the wanted gradient shrinks by the factor 1 - damping (1 + calibration error), to zero without calibration error and damping. The structures and the measurement for the fit can be obtained from the functions of the wrapper.", "quantifier": "all fit parameters (groups, elements, values), damping factors, compensation settings and machine states", "why_tests_cant": "The factor must hold for every magnet, every error and every set of groups; a test shows it for one lattice.", "anchors": ["pySC/correction/loco_wrapper.py: apply_lattice_correction, loco_cm_structure, loco_measurement, loco_fit_parameters"]}
{"id": "C80", "title": "The correction of BPMs with a LOCO fit removes their errors", "statement": "applyDiagnosticCorrection reduces the calibration error of each BPM and plane by the deviation of the fitted gain from one, except outliers, with mean zero if requested, and its roll by half the difference of the fitted couplings; true fitted gains remove the calibration errors; nothing else changes; the structures of the wrapper can be used, and kicks of correctors are corrected likewise.", "quantifier": "all machines, BPM structures, gains, couplings, limits for outliers", "why_tests_cant": "The arithmetic must hold for all gains and index tables, and that no default structure works can not be tested exhaustively.", "anchors": ["pySC/correction/loco_wrapper.py: applyDiagnosticCorrection, loco_bpm_structure"]}
{"id": "C81", "title": "Multipole tables are read from files as they were written", "statement": "read_multipoles returns the components of the file, the normal ones first, with the order and the kind of the main component (the only entry equal to one); without a unique one it continues with a default, as announced; incomplete files are not used; the result can be passed on to the functions which set multipoles, which then apply the table.", "quantifier": "all tables of any number of rows, all positions of the main component", "why_tests_cant": "Tables of every length and position of the main component are covered; the order and sign conventions agree by accident on special tables.", "anchors": ["pySC/utils/sc_tools.py: read_multipoles", "pySC/matlab_index.py: SCmultipolesRead, SCsetMultipoles", "pySC/core/simulated_commissioning.py: SimulatedCommissioning.set_systematic_multipole_errors"]}
{"id": "C82", "title": "Ramping up errors reaches the full errors", "statement": "SCrampUpErrors scales the errors of the machine by 1/n, 2/n, ..., 1, correcting the orbit after each step. If the orbit corrections succeed it completes; after each step the machine has that fraction of its original errors, and after the last one all of them.", "quantifier": "all machines, numbers of steps and error values", "why_tests_cant": "Every step reads the reference it also overwrites; what is left depends on the whole sequence of scales and on every machine, with or without sections.", "anchors": ["pySC/correction/ramp_errors.py: SCrampUpErrors, scaleSupport, scaleInjection, scaleCircumference"]}
{"id": "C83", "title": "After apply_errors the fields agree with set-points and errors", "statement": "If no element gets its field from two registered magnets, then after a successful apply_errors() the fields of all registered magnets and cavities are those implied by their set-points and the new errors: update_magnets of any magnet and update_cavities change nothing. Hence two histories of successful set-point calls after it which end with equal set-points end with equal lattices.", "quantifier": "all machines with registered uncertainties, all random numbers, cut-offs and later histories of set-point calls", "why_tests_cant": "The order of drawing errors, aligning and updating must leave no magnet or cavity behind for any machine and any errors drawn.", "anchors": ["pySC/core/simulated_commissioning.py: apply_errors, update_magnets, update_cavities, _update_magnets"]}
{"id": "C84", "title": "update_supports is idempotent and its result stays in force", "statement": "A repeated update_supports() changes nothing, for every choice of its flags: alignment errors are not compounded. After a successful apply_errors() the support offsets, rolls and transformations of all registered magnets, their children and BPMs are those implied by the supports and the alignment errors, and they stay so through every sequence of operations (set-points, updates, readings, corrections), even if some of them raise exceptions: update_supports() would change nothing. For calls with only one of the flags this requires that no BPM is also a registered magnet or child of one.", "quantifier": "all lattices, supports, registrations, random numbers and histories of operations with any outcome", "why_tests_cant": "Whether some operation silently disturbs or compounds the alignment depends on the history; tests only see a few of them.", "anchors": ["pySC/core/simulated_commissioning.py: update_supports, apply_errors, set_cm_setpoints, set_magnet_setpoints, set_cavity_setpoints", "pySC/utils/sc_tools.py: update_transformation"]}
{"id": "C85", "title": "Every error is made from random numbers of its own", "statement": "After a successful apply_errors every error of a registered cavity, BPM or magnet (except the BPM noise levels, which are stored as given) equals its registered uncertainty times random numbers, component by component, and likewise the six static injection errors and the relative error of the circumference. No random number is used for two errors or for two components of the same error, all of them are drawn by this very call, and a later apply_errors uses none of them again.", "quantifier": "all rings, all sequences of registrations, all uncertainties (scalar, array, with own cut-off), all cut-offs, all streams of random numbers, all histories", "why_tests_cant": "Statistical tests on some seeds see correlations only between the few quantities they compare; that no number is shared between any two errors, whatever is re-drawn because of the cut-off, is a statement about every stream and every set of registrations.", "anchors": ["pySC/core/simulated_commissioning.py:apply_errors", "pySC/utils/sc_tools.py:randnc"]}
{"id": "C86", "title": "Errors can be applied to every machine in order", "statement": "On a machine in order apply_errors comes to an end and raises no exception, whatever random numbers are drawn and however many of them have to be drawn again because of the cut-off. A machine is in order if registered elements exist and are ready for use, all uncertainties are numbers or arrays of the right length with non-zero cut-offs, no support and no rest of the ring has length zero, supports of a type have no ends in common, tilt uncertainties are not combined with offset uncertainties of both ends, and the circumference error can be taken up by the drifts. The only obstacle left is a magnet which ends up with its axis at right angles to the design trajectory.", "quantifier": "all machines in order, all random streams which never stop containing small numbers, all cut-offs but zero", "why_tests_cant": "Termination of the re-drawing loop and absence of exceptions have to hold for every stream of random numbers, every layout of supports and every combination of registered uncertainties; tests try a few seeds of a few machines.", "anchors": ["pySC/core/simulated_commissioning.py:apply_errors", "pySC/core/simulated_commissioning.py:_apply_support_alignment", "pySC/core/simulated_commissioning.py:update_supports", "pySC/utils/sc_tools.py:randnc", "pySC/utils/sc_tools.py:scale_circumference", "pySC/utils/sc_tools.py:update_transformation"]}
{"id": "C87", "title": "Orbit corrections converge on a linear machine", "statement": "On a machine whose readings depend linearly on the kicks, each step of correct (and of balance, for the first turn and its difference from the second) makes the largest deviation from the reference smaller by at least a factor q, if the pseudo-inverse used inverts the response of the machine up to a relative error q and no corrector is at its limit; with the exact inverse the reference is reached in the first step.", "quantifier": "all machines, response matrices (also wrong ones), pseudo-inverses, references, corrector and BPM lists and numbers of steps", "why_tests_cant": "Convergence has to hold for all response matrices, errors of the model and start orbits; a test shows it for one lattice and seed.", "anchors": ["pySC/correction/orbit_trajectory.py:correct", "pySC/correction/orbit_trajectory.py:balance"]}
{"id": "C88", "title": "Registrations in order give a machine which can be used", "statement": "If every registration call fits the lattice (elements exist and have the fields their kind needs, uncertainties have the right number of values, children of a master magnet can take its field, supports of one type have no end in common), then all calls succeed, in any number and any order, apply_errors succeeds on the resulting machine for every cut-off and for every uncertainty of injection and circumference the drifts can take up, and at any later time the registered correctors, magnets and cavities accept every request for values they have.", "quantifier": "all lattices, all lists of registration calls in order for them, all streams of random numbers, cut-offs, uncertainties of injection and circumference, and all later sequences of calls with any outcome", "why_tests_cant": "Tests register one lattice in one order; which combinations of calls and options leave a machine on which later calls fail is a question about all of them.", "anchors": ["pySC/core/simulated_commissioning.py:register_bpms", "pySC/core/simulated_commissioning.py:register_cavities", "pySC/core/simulated_commissioning.py:register_magnets", "pySC/core/simulated_commissioning.py:register_supports", "pySC/core/simulated_commissioning.py:apply_errors"]}
{"id": "C89", "title": "Missing data take no part in the statistics", "statement": "weighted_nanmean, weighted_nanrms, circular_nanmean and circular_nanerror give what weighted_mean, weighted_rms, circular_mean and circular_error give for the data without the missing (NaN) ones, whose errors are left out as well.", "quantifier": "all data with any number of missing values, all errors and periods, with and without the correction for small samples", "why_tests_cant": "The test of circular_nanerror uses data whose error is at its ceiling of 0.3 periods, where every sample size gives the same result.", "anchors": ["pySC/utils/stats.py:weighted_nanmean", "pySC/utils/stats.py:weighted_nanrms", "pySC/utils/stats.py:circular_nanmean", "pySC/utils/stats.py:circular_nanerror"]}
{"id": "C90", "title": "Invariants of whole commissioning sessions", "statement": "Whatever a user does in whatever order on one machine - registrations, errors, set-point requests, every correction and every measurement of the package, failing calls included - the design lattice is not modified, elements are neither added nor removed and the records of registered elements agree with each other; without further registrations the records and the design data of magnets do not change, and no corrector is set beyond its limits.", "quantifier": "all sequences of calls with all arguments, all states, all behaviours of tracking, optics calculations, minimisers and random numbers", "why_tests_cant": "Tests run one correction on one machine; a session is an arbitrary sequence of calls which share one object, some of which fail half way.", "anchors": ["pySC/core/simulated_commissioning.py:SimulatedCommissioning", "pySC/correction/orbit_trajectory.py", "pySC/correction/rf.py", "pySC/correction/tune.py", "pySC/correction/chroma.py", "pySC/correction/bba.py", "pySC/correction/injection_fit.py", "pySC/correction/loco.py", "pySC/correction/loco_wrapper.py", "pySC/correction/ramp_errors.py", "pySC/lattice_properties/response_model.py", "pySC/lattice_properties/response_measurement.py", "pySC/matlab_index.py"]}
{"id": "C91", "title": "Calls which concern different elements do not notice each other", "statement": "Registering, setting, updating and reading elements concerns only the elements named and the magnets driven by them: calls which concern different elements raise the same exceptions (or none) in whatever order they are made and lead to the same machine; set-points read for some correctors are not influenced by calls for other elements; one request for several correctors does the same as separate requests.", "quantifier": "all sequences of registrations, set-point requests, updates, systematic multipole errors and readings with pairwise different elements (children included), all permutations of them, all machines with sorted index lists, failing calls included", "why_tests_cant": "Tests fix one order of a few calls; the statement is about all permutations of arbitrarily long sequences.", "anchors": ["pySC/core/simulated_commissioning.py:SimulatedCommissioning.register_bpms", "pySC/core/simulated_commissioning.py:SimulatedCommissioning.register_cavities", "pySC/core/simulated_commissioning.py:SimulatedCommissioning.register_magnets", "pySC/core/simulated_commissioning.py:SimulatedCommissioning.set_systematic_multipole_errors", "pySC/core/simulated_commissioning.py:SimulatedCommissioning.update_magnets", "pySC/core/simulated_commissioning.py:SimulatedCommissioning.update_cavities", "pySC/core/simulated_commissioning.py:SimulatedCommissioning.set_cm_setpoints", "pySC/core/simulated_commissioning.py:SimulatedCommissioning.get_cm_setpoints", "pySC/core/simulated_commissioning.py:SimulatedCommissioning.set_magnet_setpoints", "pySC/core/simulated_commissioning.py:SimulatedCommissioning.set_cavity_setpoints"]}
{"id": "C92", "title": "Systematic multipole errors stay what they were set to", "statement": "The systematic multipole errors given to a magnet by set_systematic_multipole_errors stay as they are until they are set again for this magnet and this component: neither a later call for other magnets or components nor a later use of the table by its owner changes them.", "quantifier": "all sequences of calls (failing ones included) and of writes into the user's own tables, all machines, magnets, components and tables", "why_tests_cant": "The effect is a side effect on magnets which the second call does not name; it depends on which tables earlier calls were given, over any history.", "anchors": ["pySC/core/simulated_commissioning.py:SimulatedCommissioning.set_systematic_multipole_errors"]}
{"id": "C93", "title": "On an error-free machine the measured response is the model response", "statement": "On a machine without errors (the beam sees the design lattice, BPMs have neither errors nor noise) the measured closed-orbit response matrix and the measured dispersion are entry by entry those which SCgetModelRM and SCgetModelDispersion compute for the design lattice with the same BPMs, correctors, cavities and steps: same rows, columns, signs and units.", "quantifier": "all machines without errors (any lattice, thin and thick correctors in both planes, any nominal set-points), BPMs, correctors, cavities and step sizes, every tracking code which sees only the optics", "why_tests_cant": "The measured and the model response are computed by different code with different conventions (KickAngle or polynomials, integrated or not, signs of the planes, order of rows and columns); agreement must hold for every lattice, not only for those a test sets up.", "anchors": ["pySC/correction/loco.py:measure_closed_orbit_response_matrix", "pySC/lattice_properties/response_measurement.py:dispersion", "pySC/lattice_properties/response_model.py:SCgetModelRM", "pySC/lattice_properties/response_model.py:SCgetModelDispersion", "pySC/core/simulated_commissioning.py:SimulatedCommissioning.set_cm_setpoints"]}
{"id": "C94", "title": "Measurements with the same seed see the same noise", "statement": "Two machines with the same BPMs and the same injection and measurement settings, read with the random generator in the same state, are measured with the same bunches and the same noise, whatever their lattices are and wherever the beam goes, and leave the generator in the same state. Hence, where a change of the lattice displaces the beam without losses, the reading changes exactly by the displacement as seen by the BPM (rolled and calibrated), without any noise.", "quantifier": "all pairs of machines with equal settings and arbitrarily different lattices, all BPM errors, numbers of shots, turns and particles, tracking codes and random generators", "why_tests_cant": "Comparing lattices with a fixed seed is only legitimate if the number of random draws never depends on the beam (losses, NaN); a test with a few lattices can not show that for all trajectories.", "anchors": ["pySC/core/beam.py:bpm_reading", "pySC/core/beam.py:generate_bunches", "pySC/core/beam.py:beam_transmission", "pySC/utils/sc_tools.py:randnc"]}
{"id": "C95", "title": "Truncated random numbers are independent and normal within the cut-off", "statement": "If the random generator produces independent standard normal numbers, then calls of randnc with non-zero cut-offs, made one after another, almost surely all return; the numbers they return are all independent of each other, and each has exactly the standard normal distribution given that its magnitude does not exceed the cut-off of its call. What the generator produces afterwards is again independent and standard normal, and independent of what was returned.", "quantifier": "all sequences of calls of any length, with any sizes and non-zero cut-offs, all states of the generator, all probability spaces", "why_tests_cant": "A distribution is a statement about infinitely many outcomes; rejection sampling with repeated passes over the array could bias or correlate the numbers in ways no finite sample excludes.", "anchors": ["pySC/utils/sc_tools.py:randnc"]}
{"id": "C96", "title": "Errors are uncertainties times independent truncated normal numbers", "statement": "With a generator of independent standard normal numbers, the errors which apply_errors gives to cavities, BPMs (except noise levels, which are stored as they are), magnets, the injected trajectory and the circumference are the registered uncertainties multiplied, component by component, by independent random numbers; each number has the standard normal distribution given that its magnitude is within the cut-off registered with its uncertainty, or else within the cut-off given to apply_errors. On a machine in order apply_errors almost surely succeeds.", "quantifier": "all machines with well registered uncertainties and non-zero cut-offs, all numbers of elements and components, all generators of independent standard normal numbers", "why_tests_cant": "Independence and distribution of all errors of a machine are statements about the joint law of arbitrarily many random numbers, which no sample of seeds can establish.", "anchors": ["pySC/core/simulated_commissioning.py:apply_errors", "pySC/utils/classdef_tools.py:randn_cutoff", "pySC/utils/sc_tools.py:randnc"]}
{"id": "C97", "title": "Errors are centred, uncorrelated, and as large as their uncertainties", "statement": "Over the seeds, every error which apply_errors gives to cavities, BPMs, magnets, the injected trajectory and the circumference has mean zero, two different errors (or components) are uncorrelated, and the rms value of an error is the uncertainty it was registered with.", "quantifier": "all machines with well registered uncertainties and non-zero cut-offs, all generators of independent standard normal numbers, all pairs of error components", "why_tests_cant": "Mean, correlation and rms are integrals over all seeds; the deviation of the rms value at the default cut-off of 2 sigma is systematic, but a test with a few seeds takes it for statistics.", "anchors": ["pySC/core/simulated_commissioning.py:apply_errors", "pySC/utils/sc_tools.py:randnc"]}
{"id": "C98", "title": "BPM readings are made from independent truncated normal numbers", "statement": "With a generator of independent standard normal numbers, the readings which bpm_reading returns in turn-by-turn, orbit and pseudo-orbit mode are computed from independent random numbers: one for the jitter of each coordinate of each injected bunch, one for each coordinate of each particle (if there is more than one particle), and one for each plane and the sum signal of each BPM in each turn and shot. Each number has the standard normal distribution given that its magnitude is at most 2 (3 for the particles). On a machine in order the readings are almost surely obtained.", "quantifier": "all machines, requests, numbers of shots, turns, BPMs and particles, all tracking results, all generators of independent standard normal numbers", "why_tests_cant": "The joint law of the noise of all BPMs, turns and shots cannot be established by samples; noise shared between BPMs, turns or shots would pass tests of single readings.", "anchors": ["pySC/core/beam.py:bpm_reading", "pySC/core/beam.py:generate_bunches", "pySC/core/beam.py:_real_bpm_reading", "pySC/utils/sc_tools.py:randnc"]}
{"id": "C99", "title": "Measurements on a machine in order come to an end", "statement": "If all BPMs have their errors and their sum signals cannot vanish, bunches can be made from the injection settings, the request contains a registered BPM, and the random generator does not produce only large numbers from some point on (so in particular almost surely for normal numbers), then bpm_reading returns readings in every mode, and beam_transmission returns the transmission; only the state of the random generator changes.", "quantifier": "all machines in order, requests, modes, tracking results (particles may be lost anywhere), all random streams of this kind", "why_tests_cant": "Rejection sampling has no bound on its number of passes, and the measurement divides by sums of weights which vanish for some patterns of beam loss only; success for all patterns needs a proof.", "anchors": ["pySC/core/beam.py:bpm_reading", "pySC/core/beam.py:beam_transmission", "pySC/core/beam.py:_real_bpm_reading", "pySC/utils/sc_tools.py:randnc"]}
{"id": "C100", "title": "BPM readings are unbiased and shots average the noise", "statement": "If the beam is the same in every shot and all of it reaches the BPMs, then over the seeds every reading of bpm_reading has as its mean the reading without noise (rolled, offset and scaled position), the deviations of different BPMs, planes and turns are uncorrelated, and the rms deviation is the noise level of the BPM divided by the square root of the number of shots.", "quantifier": "all machines with a closed orbit or a single particle injected without jitter, all BPM errors with sum errors below 1/2, all numbers of shots, turns and BPMs, all generators of independent standard normal numbers", "why_tests_cant": "Bias, correlation and rms values are integrals over all seeds; weights correlated with the noise (the sum signal divides the noise and weights the mean) could cause a bias too small to be seen in samples.", "anchors": ["pySC/core/beam.py:bpm_reading", "pySC/core/beam.py:_real_bpm_reading", "pySC/utils/sc_tools.py:randnc"]}
{"id": "C101", "title": "Elements can be registered in one call or in several", "statement": "Registering a set of BPMs, cavities, magnets or supports with given uncertainties in one call, or in two calls with the same keywords which together name the same elements, has the same result: either both ways raise an exception, or the two machines cannot be told apart by any later call (same lattice, ordinates, and uncertainties of every element). The order of the ordinates and repeated ordinates do not matter; masters are given with the columns of their children.", "quantifier": "all machines, all lists of ordinates in any order (overlapping or not), all keyword arguments", "why_tests_cant": "All splittings of all lists with all keywords and earlier registrations cannot be enumerated; a registration which clears or overwrites what an earlier one stored shows up only for particular overlaps.", "anchors": ["pySC/core/simulated_commissioning.py:SimulatedCommissioning.register_bpms", "pySC/core/simulated_commissioning.py:SimulatedCommissioning.register_cavities", "pySC/core/simulated_commissioning.py:SimulatedCommissioning.register_magnets", "pySC/core/simulated_commissioning.py:SimulatedCommissioning.register_supports"]}
{"id": "C102", "title": "Corrections know the machine only through its control room and its instruments", "statement": "No correction or measurement uses knowledge a control room would not have. If two machines show the same set-points, limits and design data, give the same BPM readings and transmissions, and keep doing so under the same changes of set-points, injection settings and offsets, gains and rolls subtracted from the readings, then every session of set-points, measurements and corrections (threading, orbit correction, RF, tune scan, injection fits, beam-based alignment, response matrices, LOCO corrections) raises the same exceptions, measures the same values and ends with the same set-points on both, however their errors differ. In particular the registered uncertainties and the records of how supports, magnets and BPMs are aligned have no influence. Not meant are the calls which simulate with knowledge of the errors on purpose: fake_bba, readings at all elements, tune and chromaticity fits, and the ramp-up of errors.", "quantifier": "all pairs of machines with the same instruments, all sessions of such steps of any length, failures included", "why_tests_cant": "A correction which peeks at the true fields, offsets or calibration errors still works in every test of its results, usually better; that it does not peek is a statement about pairs of machines.", "anchors": ["pySC/correction/orbit_trajectory.py", "pySC/correction/rf.py", "pySC/correction/tune.py:tune_scan", "pySC/correction/injection_fit.py", "pySC/correction/bba.py:trajectory_bba", "pySC/correction/bba.py:orbit_bba", "pySC/lattice_properties/response_measurement.py", "pySC/lattice_properties/response_model.py", "pySC/correction/loco.py", "pySC/correction/loco_wrapper.py"]}
{"id": "C103", "title": "Errors are in proportion to the uncertainties", "statement": "With the same random numbers, a machine without errors whose registered uncertainties are all c times as large gets exactly c times the errors from apply_errors: offsets, rolls, calibration and noise of BPMs, fields, offsets and rolls of magnets, cavity errors, offsets and rolls of sections, plinths and girders, what these amount to at magnets and BPMs, and the errors and jitter at injection; equally many random numbers are used up. The uncertainties of BPMs, cavities and magnets can also be changed one by one: then each error changes in proportion to its own uncertainty and all others stay the same. The uncertainty of the circumference is kept fixed. If errors can be applied to the one machine, they can be applied to the other.", "quantifier": "all machines without errors, all registered uncertainties, factors (zero and negative ones included), random numbers and cut-offs", "why_tests_cant": "Scans of the size of one uncertainty with a fixed seed rely on it for every lattice and every arrangement of supports; a draw that is skipped for small uncertainties or an offset added before scaling shows only in a comparison of two runs.", "anchors": ["pySC/core/simulated_commissioning.py:SimulatedCommissioning.apply_errors", "pySC/core/simulated_commissioning.py:SimulatedCommissioning._apply_support_alignment", "pySC/core/simulated_commissioning.py:SimulatedCommissioning.update_supports", "pySC/core/simulated_commissioning.py:SimulatedCommissioning.support_offset_and_roll", "pySC/utils/classdef_tools.py:randn_cutoff"]}
{"id": "C104", "title": "The elements of an SC object are objects of their own", "statement": "Lattices often contain the same element object at several positions. Whatever SC objects are made from such a lattice with SimulatedCommissioning(ring) and copied with very_deep_copy, in any number and order: an attribute set at one position of SC.RING appears at that position and nowhere else, that is, not at other positions of the same lattice, not in SC.IDEALRING, not in any other SC object, and not in the lattice from which the SC object was made; setting attributes in that lattice later changes no SC object. Elements of SC objects therefore behave like independent values.", "quantifier": "all lattices, whichever positions share elements, and all histories of making and copying SC objects and of setting attributes in them or in the given lattice", "why_tests_cant": "Test lattices are usually written with one object per position, and sharing shows only later, when an error assigned to one element appears elsewhere; all histories of copies and writes have to be considered.", "anchors": ["pySC/core/simulated_commissioning.py:SimulatedCommissioning.__init__", "pySC/core/simulated_commissioning.py:SimulatedCommissioning.very_deep_copy"]}
{"id": "C105", "title": "Misalignments of supports superpose", "statement": "If the offsets and rolls of all sections, plinths and girders are the sums of two sets of misalignments then support_offset_and_roll gives, at any points of the ring, the sums of the offsets, rolls, pitches and yaws it gives for the two sets, and it succeeds if it succeeds for both; update_supports moves and rolls every registered magnet and BPM accordingly, whatever flags are given. In particular the displacement by all supports is the sum of the displacements by the sections, by the plinths and by the girders alone.", "quantifier": "all lattices, all lists of supports of the three kinds (also overlapping, nested and across the origin), all pairs of sets of misalignments, all points and all flags", "why_tests_cant": "Superposition is a statement about all pairs of misalignments and all arrangements of supports; interpolation, overwriting within loops and the special case of supports without length could break it for particular arrangements only.", "anchors": ["pySC/core/simulated_commissioning.py:support_offset_and_roll", "pySC/core/simulated_commissioning.py:update_supports", "pySC/utils/classdef_tools.py:s_interpolation"]}
{"id": "C106", "title": "A failed registration can be corrected", "statement": "If a registration of BPMs, magnets, cavities or supports raises an exception, the user can repeat it with right arguments and work with the object from there: elements not named in the failed call, the design lattice, injection settings and random numbers are untouched by it, and after the corrected registration apply_errors, the updates and BPM readings work as if the failed call had not been made.", "quantifier": "all objects, all registrations with all ordinates and keywords, all sequences of later calls (exceptions caught)", "why_tests_cant": "Whether an object recovers is a statement about every later history after every failing call; a test follows one failing call by one corrected call.", "anchors": ["pySC/core/simulated_commissioning.py:register_bpms", "pySC/core/simulated_commissioning.py:register_magnets", "pySC/core/simulated_commissioning.py:register_cavities", "pySC/core/simulated_commissioning.py:apply_errors", "pySC/core/simulated_commissioning.py:update_supports"]}
{"id": "C107", "title": "Misalignments of supports are uncertainties times independent truncated normal numbers", "statement": "With independent standard normal random numbers, apply_errors gives sections, plinths and girders offsets and angles made from the uncertainties registered with the start of the support: an uncertainty times a random number for each component, with numbers of its own for the end if an uncertainty of this name is registered with the end as well, and the same numbers otherwise. A drawn pitch or yaw turns the support about its centre; without one the angle is that of the line through the ends. All random numbers, together with those behind the errors of cavities, BPMs, magnets, injection and circumference, are independent, and each has the standard normal law cut off at its own cut-off or at the one given to apply_errors. On a machine in order apply_errors almost surely succeeds.", "quantifier": "all machines with all uncertainties and cut-offs, all supports without common ends, all sequences of independent standard normal random variables", "why_tests_cant": "Independence and laws are statements about infinitely many random numbers; tests see a finite sample and cannot exclude that two supports share a number for some combination of uncertainties.", "anchors": ["pySC/core/simulated_commissioning.py:apply_errors", "pySC/core/simulated_commissioning.py:_apply_support_alignment_error", "pySC/utils/classdef_tools.py:randn_cutoff", "pySC/utils/sc_tools.py:randnc"]}
{"id": "C108", "title": "With the same seed a machine gets the same errors, whatever it was used for before", "statement": "After the registrations, apply_errors gives a machine the same errors for the same seed of the random generator no matter what the machine was used for before: set-points, multipole errors, updates, switching of cavities and radiation, changed injection settings and tracking modes, bunches, BPM readings, transmission measurements and corrections, in any number and order, successful or with exceptions. Same are all errors of BPMs, cavities, magnets and supports, what the supports amount to at magnets and BPMs, the transformations of the registered magnets, the lengths of all elements, the injected beam and the state of the generator. More generally, two machines get the same errors if they have the same registrations, the same geometry, the same ideal injection and the same errors without uncertainty. If the uses draw no random numbers, no new seed is needed. Required is that the cavities of the lattice are not drifts.", "quantifier": "all machines whose cavities are not drifts, all uncertainties, all sequences of uses, all seeds, all tracking and random numbers, provided apply_errors returns", "why_tests_cant": "A test compares two runs for one lattice and one way of using it; that no use leaves anything behind which a later apply_errors reads needs all uses and all lattices.", "anchors": ["pySC/core/simulated_commissioning.py:apply_errors", "pySC/core/simulated_commissioning.py:update_supports", "pySC/core/lattice_setting.py:switch_cavity_and_radiation", "pySC/utils/sc_tools.py:scale_circumference", "pySC/core/simulated_commissioning.py:set_cavity_setpoints", "pySC/core/simulated_commissioning.py:set_magnet_setpoints"]}
{"id": "C109", "title": "Additive changes of set-points add up, in any order", "statement": "Requests to set_cm_setpoints, set_magnet_setpoints and set_cavity_setpoints with method='add' add up: after any sequence of them none of which meets a limit, each set-point is the one before plus the sum of all amounts asked for (kicks converted with the length of the corrector). If the fields were up to date before and no element gets its field from two magnets, the whole machine afterwards depends on these totals only: the requests may be made in any order, two requests may be combined to one with the sum, and requests that add up to nothing leave the object exactly as it was. As soon as a limit cuts off one request this is no longer so.", "quantifier": "all machines, all errors, all sequences and orders of requests, all amounts within the limits; each request names a magnet once, has floating point values and no dipole compensation", "why_tests_cant": "A test tries a few sequences; that only totals matter is a claim about all pairs of sequences and about every attribute of every element.", "anchors": ["pySC/core/simulated_commissioning.py:set_cm_setpoints", "pySC/core/simulated_commissioning.py:set_magnet_setpoints", "pySC/core/simulated_commissioning.py:set_cavity_setpoints", "pySC/core/simulated_commissioning.py:update_magnets", "pySC/core/simulated_commissioning.py:update_cavities"]}
{"id": "C110", "title": "Points, area and automatic angles of the dynamic aperture", "statement": "The evaluation of the dynamic aperture keeps points of the plane: conversion to polar coordinates and back gives the same point for all points, and the same radius and angle (up to full turns) for positive radii; centring moves every point by the closed orbit and nothing else; the area returned is the area of the polygon returned, also after centring; the angles returned are those asked for if the orbit is in the origin; and the automatic angles are the directions of points on an ellipse with the width and height found by a scan of four angles.", "quantifier": "all points, closed orbits, numbers of points and apertures", "why_tests_cant": "Invariance of the area under every shift, for every polygon, and the geometry of the angles for all widths, heights and numbers of angles.", "anchors": ["pySC/lattice_properties/apertures.py:SCdynamicAperture", "pySC/lattice_properties/apertures.py:cart2pol", "pySC/lattice_properties/apertures.py:pol2cart", "pySC/lattice_properties/apertures.py:_autothetas"]}
{"id": "C111", "title": "The distribution of the errors is a matter of the registered uncertainties only", "statement": "The joint distribution of the errors which apply_errors gives to cavities, BPMs, magnets, the injected trajectory and the circumference is determined by the registered uncertainties: each error is distributed as its uncertainty times a truncated standard normal number, different errors are independent, and two machines with the same uncertainties have identically distributed errors, whatever their lattices, their previous use, the order of the keywords in the registrations, and the state of the generator.", "quantifier": "all pairs of machines in order, all generators of independent standard normal numbers, all sequences of registrations", "why_tests_cant": "Equality of joint distributions can not be established from samples, and the order in which numbers are drawn depends on the history of registrations.", "anchors": ["pySC/core/simulated_commissioning.py:SimulatedCommissioning.apply_errors", "pySC/utils/classdef_tools.py:randn_cutoff", "pySC/utils/sc_tools.py:randnc"]}
{"id": "C112", "title": "How the uncertainties were registered has no influence on anything that follows", "statement": "Two machines which have the same elements, settings and uncertainties, but whose uncertainties were registered in another order, can not be told apart by anything a user does: every sequence of calls - further registrations, generation of errors from the same seed, measurements, corrections, copies - raises the same exceptions at the same places, gives the same results and leads to machines of which the same is true. Hence registering different elements in another order, or in one call instead of two, changes nothing in the later commissioning, not even the errors drawn for a given seed.", "quantifier": "all machines, all sequences of registrations of different elements and their permutations, all later sessions, all generators and all results of tracking and fits", "why_tests_cant": "The claim is about all continuations of a session; the dictionaries of uncertainties are iterated, so that an order of registration may show up anywhere.", "anchors": ["pySC/core/simulated_commissioning.py:SimulatedCommissioning.apply_errors", "pySC/core/simulated_commissioning.py:SimulatedCommissioning.register_bpms", "pySC/core/simulated_commissioning.py:SimulatedCommissioning.register_magnets", "pySC/utils/classdef_tools.py:intersect", "pySC/core/classes.py:Sigmas"]}
{"id": "C113", "title": "Corrections leave the target orbit of the user alone", "statement": "The array with the target orbit given to a correction is only read: after any sequence of first-turn, stitching, balancing and orbit corrections that are given the same array, with any other calls in between and whether or not they raise exceptions, the array has the entries it had before, and the machine is the one that results if each correction is given its own copy of the array.", "quantifier": "all machines, all target orbits, all sequences of corrections and other calls, all random numbers, tracking results and pseudo-inverses", "why_tests_cant": "A test compares one correction with its expected machine; that an argument is changed shows only in a later correction, and only for targets with entries for the second turn.", "anchors": ["pySC/correction/orbit_trajectory.py:stitch", "pySC/correction/orbit_trajectory.py:balance", "pySC/correction/orbit_trajectory.py:first_turn", "pySC/correction/orbit_trajectory.py:correct", "pySC/correction/orbit_trajectory.py:_check_ords"]}
{"id": "C114", "title": "The noise of a measurement is independent of the errors and of earlier measurements", "statement": "If errors are applied to a machine and then BPM readings are taken again and again, and before each reading the machine is adjusted in any way that depends on the positions read so far (corrector settings, injection, cavities, anything that keeps the BPM list, shots, particles, turns and mode), then jitter, bunch and noise of each reading are made from random numbers of its own. All these numbers, those of different readings and those behind the errors of the machine, are independent and have the truncated standard normal laws; so noise never repeats from one reading to the next and is not correlated with the errors. What the machine is in reading number j depends on the numbers of the errors and of readings before j only, and on a machine that stays in order all readings almost surely come to an end.", "quantifier": "all machines in turn-by-turn, closed-orbit or pseudo-orbit mode, all numbers of readings, all requests, all adjustments depending on the history of readings, all tracking results", "why_tests_cant": "Independence of random variables over a whole history of readings with feedback is a statement about a probability law; a test sees a few samples.", "anchors": ["pySC/core/beam.py:bpm_reading", "pySC/core/beam.py:_real_bpm_reading", "pySC/core/beam.py:generate_bunches", "pySC/utils/sc_tools.py:randnc", "pySC/core/simulated_commissioning.py:SimulatedCommissioning.apply_errors"]}
{"id": "C115", "title": "The search for transmission tries kicks within the range of its pattern", "statement": "When first_turn or stitch search for transmission, the correctors before the point of beam loss are tried with kicks that differ from their settings at the start of the search by a point of the pattern, i.e. by at least the inner and at most the outer radius (0.5 to 1 mrad), and a search that finds nothing leaves the correctors as they were.", "quantifier": "every lattice, tracking result, noise, pattern (with any radii and number of points), every selection of correctors and BPMs and every outcome of the search, including exceptions at any point", "why_tests_cant": "the kicks depend on how often the point of loss moves during up to eight rounds over the pattern and on where the search stops; tests run one lattice with one seed", "anchors": ["pySC/correction/orbit_trajectory.py:_golden_donut_diffs", "pySC/correction/orbit_trajectory.py:_wiggling", "pySC/correction/orbit_trajectory.py:stitch", "pySC/correction/orbit_trajectory.py:first_turn"]}
{"id": "C116", "title": "Log messages appear once and where they belong, and debug modes leave no trace", "statement": "After logging has been set up with get_logger('__main__', ...), every message at or above the level of its logger and of the console appears on the console exactly once, errors on the error stream and all other messages on the output stream, and no other message appears. In a debug mode every message of the logger from DEBUG on is also written to the log file once, and once a debug mode has ended - normally, with an exception, or because it could not be started - logging works as if it had never been used.", "quantifier": "every level of a message, of the root logger and of the console, every tree of loggers and earlier set-up, and every program that logs, raises exceptions and uses debug modes in any order and nesting", "why_tests_cant": "levels are unbounded integers, and what a debug mode leaves behind shows only in later messages of other loggers or after later changes of levels", "anchors": ["pySC/utils/logging_tools.py:get_logger", "pySC/utils/logging_tools.py:DebugMode", "pySC/utils/logging_tools.py:MaxFilter", "pySC/utils/logging_tools.py:stream_handler", "pySC/utils/logging_tools.py:file_handler"]}
{"id": "C117", "title": "The figure of the supports shows each support where the machine has it", "statement": "plot_support draws, for every registered section, plinth and girder and in each of the three directions, a line that passes at every element on the support through the offset in micrometres of the straight line between the two ends of the support and through its roll, also for supports across the origin; for girders that stand on no other support this is the offset the machine uses for the elements on them. The figure of the whole ring is drawn for every machine whose supports have offsets and rolls, and so is the figure of any part of the ring.", "quantifier": "every ring with elements of non-negative length, every layout of supports of one type including supports across the origin, all offsets and rolls, every direction and all limits of the plot", "why_tests_cant": "the lines across the origin are put together from two pieces with an interpolated value, and limits leave out supports in arbitrary combinations", "anchors": ["pySC/plotting/plot_support.py:plot_support", "pySC/plotting/plot_support.py:_plot_support", "pySC/core/simulated_commissioning.py:support_offset_and_roll"]}
{"id": "C118", "title": "For the supports it does not matter from which element the ring is counted", "statement": "If the same ring with the same sections, plinths, girders and misalignments is counted from another element, support_offset_and_roll gives every element the same offsets and the same roll, pitch and yaw, and update_supports moves and turns every registered magnet and BPM by the same amounts.", "quantifier": "every ring with elements of non-negative length, every new first element, all sections, plinths and girders standing on each other in any way, across the one or the other origin or across none, and all their offsets and rolls", "why_tests_cant": "supports that cross the origin are treated by separate code whose result must be compared with the ordinary case for every choice of the first element and every stack of supports", "anchors": ["pySC/core/simulated_commissioning.py:support_offset_and_roll", "pySC/core/simulated_commissioning.py:update_supports"]}
{"id": "C119", "title": "The errors of a BPM are its own", "statement": "Changing an error of one BPM of the machine, be it by assigning a new array to its attribute or by writing into the array it holds (SC.RING[i].Offset[0] = ...), changes no error of any other BPM, no other error of this BPM, no uncertainty registered in SC.SIG and no array the user passed to register_bpms; apply_errors then brings the registered noise back.", "quantifier": "every history of creating arrays, registering BPMs with arrays, numbers and lists with a cut-off, applying errors, and writing into or replacing any of the arrays, with exceptions on the way; all BPMs, attributes, entries and values", "why_tests_cant": "which objects share memory depends on the whole history of registrations and apply_errors calls, and shows only by changing one value and looking at all others", "anchors": ["pySC/core/simulated_commissioning.py:register_bpms", "pySC/core/simulated_commissioning.py:apply_errors", "pySC/utils/classdef_tools.py:randn_cutoff"]}
{"id": "C120", "title": "The figure of corrector strengths shows the strengths and their distribution", "statement": "plot_cm_strengths draws a figure for every machine whose corrector strengths can be read with get_cm_setpoints, and changes nothing. In each plane there is one bar per registered corrector, at the position of that corrector along the ring, as high as its kick in microradians. The curve of a plane rises from left to right to 1, and each point before the last shows the fraction of correctors whose kick is smaller than the abscissa; no kick lies to the right of the last point.", "quantifier": "every ring, every list of registered correctors in both planes and every set of kicks, including equal kicks and correctors with CorrectorPass", "why_tests_cant": "figures are not compared by tests, and the values of a distribution depend on ties between kicks and edges of bins", "anchors": ["pySC/plotting/plot_lattice.py:plot_cm_strengths", "pySC/core/simulated_commissioning.py:get_cm_setpoints"]}
{"id": "C121", "title": "The figure of the phase space shows every particle where it is", "statement": "plot_phase_space draws, for each of the ordinates asked for, every particle of the bunch in every turn with its coordinates at that element: x and y in micrometres, angles in microradians, the path length relative to the slip since injection if the cavity is on, and the energy in percent. Lost particles do not appear. The injection point and, on demand, the closed orbit appear on the same scale. The bunch is the one given, or a new one with the number of particles asked for; a bunch without six rows, or together with a number of particles, is refused. Nothing but the position in the sequence of random numbers changes, and nothing at all if a bunch is given.", "quantifier": "every machine, ordinate list, custom bunch, number of particles and turns, and every outcome of the tracking and of the search for the closed orbit, particles lost at any turn included", "why_tests_cant": "figures are not compared by tests, and the outcome of tracking (who is lost when) is arbitrary", "anchors": ["pySC/plotting/plot_phase_space.py:plot_phase_space", "pySC/plotting/plot_phase_space.py:_check_input", "pySC/core/beam.py:generate_bunches"]}
{"id": "C122", "title": "Plotting the lattice shows the range asked for and leaves no trace", "statement": "plot_lattice shows the given range, or else the range from the first to the last of the given ordinates, or else the first of n equal sectors, or else the range of the lattice. Afterwards, whether the figure could be drawn or not, the elements of both lattices, their plot ranges and the font size of the session are what they were before.", "quantifier": "every lattice, range, list of ordinates in any order, number of sectors, font size, and every outcome of the functions that draw the figure, exceptions included", "why_tests_cant": "what remains after a failed figure shows only in later figures, and failures depend on the optics of the machine", "anchors": ["pySC/plotting/plot_lattice.py:plot_lattice", "pySC/plotting/plot_lattice.py:_get_s_range"]}
{"id": "C123", "title": "The curves of the apertures go through the apertures of the elements", "statement": "The curves of plot_data_apertures have a point at position s and height v if and only if s is the position of one of the elements asked for and v is one of its limits in the direction and of the kind of the curve, in millimetres: plus and minus the half axis of an elliptic aperture, the lower and upper limit of a rectangular one. Limits beyond the cut-off and elements without aperture have no points.", "quantifier": "every ring, list of reference points with or without the end of the ring, cut-off, and all elliptic and rectangular apertures", "why_tests_cant": "an equivalence for all positions and heights; a wrong sign, order or unit shows only for apertures without symmetry", "anchors": ["pySC/plotting/plot_apertures.py:plot_data_apertures", "pySC/plotting/plot_apertures.py:_apertures"]}
{"id": "C124", "title": "Without noise nothing depends on the state of the random number generator", "statement": "If the BPMs have neither noise nor errors of the sum signal, the injection has no jitter and the beam no size, then all measurements and corrections return the same values, raise the same exceptions in the same places and leave the same machine, whatever state the random number generator is in, however large the other errors are. In particular a reading can be repeated, and the measured orbit response to a corrector does not depend on which other correctors are measured with it, nor on their order.", "quantifier": "every machine without noise, every pair of states of the generator, every session of set-points, readings, response and dispersion measurements, corrections and beam-based alignments that leaves size and jitter of the beam alone", "why_tests_cant": "tests run with one seed and one order of calls; a random number used outside the noise shows only in the comparison of all states of the generator", "anchors": ["pySC/core/beam.py:bpm_reading", "pySC/core/beam.py:generate_bunches", "pySC/utils/sc_tools.py:randnc", "pySC/correction/loco.py:measure_closed_orbit_response_matrix", "pySC/lattice_properties/response_measurement.py:response_matrix"]}
{"id": "C125", "title": "The synoptic shows each magnet, corrector and monitor where it is", "statement": "plot_synoptic draws, for every dipole, quadrupole, sextupole and other multipole, one shape that covers the extent of the magnet, with a roof that tells the sign of the gradient of quadrupoles and sextupoles. With correctors it draws one shape for every registered horizontal corrector above the axis, for every vertical corrector below it, and for every registered skew quadrupole, inside the extent of the element. Every monitor has a shape and a marker at its position.", "quantifier": "every lattice without negative lengths, every assignment of classes to its elements, every list of registered correctors, skew quadrupoles and BPMs", "why_tests_cant": "whether shapes are where the elements are must hold for all lattices; figures are not compared by tests, and a shape of the wrong kind raises no exception", "anchors": ["pySC/plotting/plot_synoptic.py:plot_synoptic", "pySC/plotting/plot_synoptic.py:_get_shape"]}
{"id": "C126", "title": "Without noise the number of shots of the BPM readings has no influence", "statement": "If the BPMs have neither noise nor errors of the sum signal, the injection has no jitter and the beam no size, then all measurements and corrections return the same values and errors, raise the same exceptions in the same places and leave the same machine, whatever number of shots (at least one) the BPM readings are averaged over, although more shots draw more random numbers.", "quantifier": "every machine without noise, every two numbers of shots other than zero, every session of set-points, readings, response and dispersion measurements, corrections and beam-based alignments that leaves size and jitter of the beam alone and never sets zero shots", "why_tests_cant": "tests compare few settings of the number of shots on one machine; a wrong weight of the shots or of lost shots in the average appears only for certain combinations of losses, turns and shots", "anchors": ["pySC/core/beam.py:bpm_reading", "pySC/core/beam.py:_real_bpm_reading", "pySC/core/beam.py:beam_transmission", "pySC/core/simulated_commissioning.py:SimulatedCommissioning", "pySC/lattice_properties/response_measurement.py:response_matrix"]}
{"id": "C127", "title": "Without noise a reading of some BPMs is part of the reading of all", "statement": "On a machine whose BPMs have neither noise nor errors of the sum signal and whose beam has neither jitter nor size, whenever a list of BPMs can be read, any of them can be read alone, and positions, sum signals and errors are those which the reading of all gives for these BPMs in each turn. The same holds for the measured closed orbit response matrix and the dispersion, which moreover leave the same machine. With or without noise, the order in which BPMs are asked for, repetitions and ordinates which are no registered BPMs make no difference.", "quantifier": "every machine without noise, every two lists of BPMs one of which is part of the other, all tracking modes, numbers of turns, shots and particles, every pattern of beam loss, every list of correctors and cavities and every step", "why_tests_cant": "tests read either all BPMs or one fixed selection; a selection which is applied to the trajectory but not to the BPM errors, or a wrong order of turns and BPMs, appears only for certain combinations of turns and selections", "anchors": ["pySC/core/beam.py:bpm_reading", "pySC/core/beam.py:_only_registered_bpms", "pySC/core/beam.py:_real_bpm_reading", "pySC/correction/loco.py:measure_closed_orbit_response_matrix", "pySC/lattice_properties/response_measurement.py:dispersion"]}
{"id": "C128", "title": "Offsets of BPMs shift readings by constants and do not enter measured responses", "statement": "If two machines, with the same random numbers, differ only in the offsets of BPMs (their own or those of their supports), every BPM reads less by the difference of its offsets, scaled by its calibration, in every turn; sum signals and standard errors are the same, the same BPMs see no beam, or both readings raise the same exception. The measured closed orbit response matrix, the dispersion and the response matrix are the same for both machines, or the same exception is raised, and the machines still differ only in these offsets afterwards.", "quantifier": "every two machines which differ only in the offsets of BPMs, with any other errors, noise, jitter, numbers of turns, shots and particles, every pattern of beam loss, every list of BPMs, correctors and cavities, every step, in turn-by-turn and orbit mode", "why_tests_cant": "tests measure responses on machines with one set of offsets; an offset which is added for some turns only, or is scaled by noise or by the calibration of another BPM, changes responses only in some machines", "anchors": ["pySC/core/beam.py:bpm_reading", "pySC/core/beam.py:_real_bpm_reading", "pySC/correction/loco.py:measure_closed_orbit_response_matrix", "pySC/lattice_properties/response_measurement.py:response_matrix", "pySC/lattice_properties/response_measurement.py:dispersion"]}
{"id": "C129", "title": "A target orbit takes the place of offsets of the BPMs in the orbit correction", "statement": "If two machines, with the same random numbers, differ only in the offsets of BPMs, and the target orbit given to the orbit correction, to the balancing of two turns or to the threading of the first turn is moved by the same amounts as the readings, the correction does the same to both: every step changes correctors and frequency alike, and both corrections end after the same number of steps, successfully or with the same exception, with machines which still differ only in these offsets.", "quantifier": "every two machines which differ only in the offsets of BPMs, with any other errors and noise, every target orbit, every response matrix and pseudo-inverse, every list of BPMs and correctors, every tolerance, dispersion scale and number of steps, in turn-by-turn and orbit mode", "why_tests_cant": "tests correct to a zero target on machines with one set of offsets; a target which is taken into account in the kicks but not in the criterion for stopping shows only for certain targets and tolerances", "anchors": ["pySC/correction/orbit_trajectory.py:correct", "pySC/correction/orbit_trajectory.py:balance", "pySC/correction/orbit_trajectory.py:first_turn", "pySC/correction/orbit_trajectory.py:_bpm_reading_and_logging", "pySC/correction/orbit_trajectory.py:_is_stable_or_converged"]}
{"id": "C130", "title": "The options of a registration decide about the type of a magnet", "statement": "After any sequence of successful register_magnets calls every magnet has the type given by the options it was named with: its horizontal and vertical corrector limits and its skew quadrupole limit are the values given last (a magnet registered as a corrector of one plane only has the limit zero in the other), it is a combined function magnet exactly if the flag CF was set for it, options which are not given are as before, and magnets not named in a call are not changed by it.", "quantifier": "every lattice, every sequence of successful register_magnets calls with any lists of magnets, also overlapping ones and lists naming a magnet more than once, and any options", "why_tests_cant": "tests register disjoint lists once; which of several values is in force depends on the order and overlap of all calls, and a flag given as False is not tried", "anchors": ["pySC/core/simulated_commissioning.py:register_magnets", "pySC/core/simulated_commissioning.py:_optional_magnet_fields"]}
{"id": "C131", "title": "Correctors and skew quadrupoles keep to the limits they were registered with", "statement": "After any sequence of successful register_magnets calls and of set_cm_setpoints and set_magnet_setpoints calls, also failing ones, in any order, every corrector addressed by a successful set_cm_setpoints call has a kick whose magnitude is at most the limit given last for this magnet and plane (HCM or VCM), whatever values and method are used; a magnet registered as a corrector of one plane only has no kick in the other plane after such a call. Likewise the skew quadrupole set-point of a magnet addressed by a successful set_magnet_setpoints call for skew quadrupoles is at most the limit (not negative) given last with SkewQuad.", "quantifier": "every lattice, every sequence of successful registrations with overlapping lists and changing limits, mixed with requests with any values, planes and methods, and every corrector", "why_tests_cant": "the limit in force is the result of all registrations and the kick the result of all requests; tests set one limit and one kick", "anchors": ["pySC/core/simulated_commissioning.py:register_magnets", "pySC/core/simulated_commissioning.py:_optional_magnet_fields", "pySC/core/simulated_commissioning.py:set_cm_setpoints", "pySC/core/simulated_commissioning.py:set_magnet_setpoints"]}
