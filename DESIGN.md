# DESIGN

## What is modelled

`/repo` is pySC, a numpy/pyAT library.  The model is written in Lean 4 with Mathlib (no other dependency), one
definition per Python function, mirroring it branch by branch.  Files:

* `lean/Verif/Model/*.lean`  executable style model, each definition cites file and lines of `/repo`;
* `lean/Verif/Spec/*.lean`   small independent vocabulary used in theorem statements;
* `lean/Verif/Lemmas/*.lean` auxiliary facts;
* `lean/Verif/Props/*.lean`  the property theorems with non-vacuity examples.

Source files and the modules modelling (parts of) them:

* `pySC/core/beam.py`: AllElements, Beam
* `pySC/core/classes.py`: Basic, LatticeSetting, LocoWrapper, RampErrors, Register, ScTools
* `pySC/core/constants.py`: Arrays, LatticeSetting, Magnets, RampErrors, Register, Rf, Setpoints
* `pySC/core/lattice_setting.py`: LatticeSetting
* `pySC/core/simulated_commissioning.py`: ApplyErrors, Arrays, Basic, Magnets, Objects, Random, Register, Setpoints, SharedTables, Structure, Supports
* `pySC/correction/bba.py`: Bba, Fit, MatlabIndex
* `pySC/correction/chroma.py`: Chroma
* `pySC/correction/injection_fit.py`: Fit, Injection
* `pySC/correction/loco.py`: Loco, Response
* `pySC/correction/loco_wrapper.py`: LocoWrapper
* `pySC/correction/orbit_trajectory.py`: Donut, Orbit, Target
* `pySC/correction/ramp_errors.py`: RampErrors
* `pySC/correction/rf.py`: Fit, Rf
* `pySC/correction/tune.py`: Chroma, Tune
* `pySC/lattice_properties/apertures.py`: Apertures, Polar
* `pySC/lattice_properties/response_measurement.py`: Response
* `pySC/lattice_properties/response_model.py`: Response
* `pySC/matlab_index.py`: MatlabIndex
* `pySC/plotting/plot_apertures.py`: PlotLattice
* `pySC/plotting/plot_lattice.py`: PlotLattice, PlotStrengths
* `pySC/plotting/plot_phase_space.py`: PhaseSpace
* `pySC/plotting/plot_support.py`: PlotSupport
* `pySC/plotting/plot_synoptic.py`: Synoptic
* `pySC/utils/at_wrapper.py`: Basic, Beam, PhaseSpace, Setpoints
* `pySC/utils/classdef_tools.py`: Arrays, Basic, Random, Register, ScTools, Setpoints, Supports
* `pySC/utils/logging_tools.py`: Logging
* `pySC/utils/sc_tools.py`: ApplyErrors, MatlabIndex, Random, ReadMultipoles, ScTools, Supports, Transformation
* `pySC/utils/stats.py`: Circular, Stats

## What is not modelled

* `pySC/plotting` except the lines of the supports drawn by `plot_support` (C117) the bars and curves of `plot_cm_strengths` (C120) the points of `plot_phase_space` (C121), the range of `plot_lattice` (C122), the curves of `plot_data_apertures` (C123) and the shapes of `plot_synoptic` (C125), all other plotting functions and `pySC/example.py`; formats, colours and the names of loggers in `pySC/utils/logging_tools.py`.
* `pySC/utils/at_wrapper.py`: tracking, closed orbits and optics are arbitrary functions (see Conventions).
* `pySC/lattice_properties/magnet_orbit.py` (`SCgetCOD`).  From reading it: it treats the tuple returned for the closed orbit as an array and
  calls the array `T2` as a function, so it should not return a result for a non-empty list.  Not proved.
* `loco_model` in `pySC/correction/loco_wrapper.py`.
* `scaleMagnets`, `scaleBPMs`, `scaleRF` in `pySC/correction/ramp_errors.py` (never reached, C82).
* `_data_measurement_orb` in `pySC/correction/bba.py` (`orbit_bba` always raises, C78).
* In `pySC/matlab_index.py`, wrappers which only pass their arguments on.
* Rounding, probability distributions, negative indices, concurrency other than the chunks of the LOCO Jacobian.

## Conventions

* **Numbers.** Floats are idealised as elements of an arbitrary linearly ordered field `K` (the theorems hold for the
  rationals and the reals), or of the reals where square roots and trigonometric functions occur.  Rounding is not
  modelled.  NaN is `none` where the code produces or tests NaN (BPM readings, survival); infinities appear only
  as corrector limits (`WithTop K`).  A division by zero, which numpy turns into inf/nan, stops the model with the
  explicit outcome `Err.nonFinite`, so no theorem is true merely because Lean puts `x/0 = 0`.
* **Python state and exceptions.** A method is a state transformer `SC -> ok value SC | error e SC`: the state reached
  when an exception is raised is part of the model, so "nothing was changed" can be stated for failing calls.
* **Elements.** An AT element is an attribute dictionary `String -> Option Attr`; `hasattr/getattr/setattr` and the
  f-strings composing attribute names are mirrored literally.
* **Random numbers.** `np.random.randn` is an arbitrary stream; rejection sampling has fuel and divergence is an explicit
  outcome.  Where distributions matter (C95-C100) the stream is a sequence of independent standard normal random variables
  on an arbitrary probability space (`Spec.StandardNormal`); that numpy's generator is one is an assumption.
* **Physics.** Tracking, closed orbit, optics, SVD, eigenvalues and optimisers are arbitrary functions (parameters);
  theorems quantify over them.  Logging and plotting are ignored.
* **Ordinates** are natural numbers (negative Python indices are not modelled).
* Aliasing of numpy arrays is modelled only where the code's behaviour depends on it; this is said at the definition.

## Trusted base

Lean 4.33.0's kernel; Mathlib; the axioms `propext`, `Classical.choice`, `Quot.sound`, at most, for every theorem (shown by
`#print axioms`); the faithfulness of the model to the Python code as cited, which was established by reading only: the code
was never run.  Several results rest on the behaviour of numpy, scipy and pyAT as known, not as tested here: pyAT elements can not be
subscripted and do not copy arrays of floats given to them (C53, C82), `np.average` raises for weights adding up to zero (C34), integer arrays
truncate or refuse floats (C16, C54, C74, C76), the shape of tracking results (C55), masked entries take no part in reductions (C49, C89).

## Reading the statuses

*proved*: the theorems cover the statement in `properties.jsonl`.  *partial*: they do not; in nearly all cases because the code violates the
statement, and then a theorem `..._violated...` proves the negation (with a concrete machine, or for all inputs), and the others say what holds.
A `_violated_` theorem under a proved property shows that a restriction in its statement is needed (C67, C72).

## Properties

* **C01 Registration keeps the index lists sorted, duplicate free and complete** (proved). Theorems: `Props/{Register}`. Proof: PyM program mirroring the three register functions; npUnique proved to be the sorted set; induction over call lists.
* **C02 A rejected registration changes nothing** (proved). Theorems: `Props/{Register}`. Proof: equation `run = error valueError, same state`.
* **C03 Uncertainties merge per element, the newest value winning** (proved). Theorems: `Props/{Register}`. Proof: dictionary model with insertion order; lookup laws.
* **C04 A fresh registration does not change the machine** (proved). Theorems: `Props/{Register}`. Proof: attribute level equalities after register and after register;update.
* **C05 Support registration: pairs form a sorted set** (proved). Theorems: `Props/{Register}`. Proof: update_double_ordinates modelled as lexsort + adjacent dedup; proved strictly sorted and set union.
* **C06 Registering one support type keeps the uncertainties of the others** (partial). Theorems: `Props/{Register}`. Proof: the code violates this: negation by witness, plus a _partial theorem for disjoint end points. The code violates the property: C06_violated is a concrete sequence in which registering a plinth erases a girder uncertainty (register_supports resets SIG.Support[ind]). C06_support_uncertainties_partial proves what holds, for elements which are not an end of the new supports.
* **C07 The design lattice is never modified** (proved). Theorems: `Props/{History}`. Proof: inductive type of API calls, invariant over all call lists, including error outcomes. All modelled calls: registrations, multipoles, apply_errors, update_*, set-points, copies, verify_structure, switches, injection settings, beam and orbit correction functions.
* **C08 very_deep_copy returns an independent equal copy** (partial). Theorems: `Props/{History}`. Proof: the code violates this (IDEALRING of the copy is RING): negation plus _partial. Violated: line 954 fills IDEALRING of the copy with elements of RING. Proved: everything else is equal and the original stays.
* **C09 Corrector write-read round trip** (proved). Theorems: `Props/{Correctors}`. Proof: loop lemma over distinct ordinates, frame lemma for update_magnets.
* **C10 Corrector limits hold through every history** (proved). Theorems: `Props/{Correctors, Setpoints}`. Proof: invariant through the loop and through exceptions. C10_order_zero_bypasses_limit records that set_magnet_setpoints(order=0) is not covered by the limit.
* **C11 Meaning of abs, rel and add** (proved). Theorems: `Props/{Setpoints}`. Proof: per ordinate equations and frame.
* **C12 Bad set-point requests are rejected before any change** (proved). Theorems: `Props/{Setpoints}`. Proof: equation of the program on bad input. C12_unknown_cavity_field_is_accepted records that an absolute request for an unknown cavity field is accepted.
* **C13 Realised magnet field formula** (proved). Theorems: `Props/{Fields}`. Proof: closed formula for the multipole with index k, coefficient by coefficient.
* **C14 update_magnets and update_cavities are idempotent** (proved). Theorems: `Props/{Fields}`. Proof: read set and write set of the update are disjoint; induction over ordinate lists.
* **C15 Skew quadrupole limit** (proved). Theorems: `Props/{Setpoints}`. Proof: per element equation.
* **C16 Integer valued requests** (partial). Theorems: `Props/{Setpoints}`. Proof: numpy dtype tag in the model of set-point arrays; negation by witness, _partial for 'abs' within limits. The property as stated is violated by the code (negation proved by C16_violated_*): integer arrays truncate in set_cm_setpoints and raise in set_magnet_setpoints/set_cavity_setpoints. Proved for absolute requests within the limits.
* **C17 Repeated ordinates in one request** (proved). Theorems: `Props/{Setpoints}`. Proof: loop equations for repeated ordinates.
* **C18 Dipole compensation moves the horizontal corrector by the matching angle and is undone by going back** (proved). Theorems: `Props/{Setpoints}`. Proof: equation for the two-call sequence. C18_skew_request_moves_corrector records that the compensation is also applied to skew requests.
* **C19 Stepping a corrector forth and back restores it unless it was clipped** (proved). Theorems: `Props/{Correctors, Restore}`. Proof: equation for the two-call sequence and converse witness.
* **C20 Errors are truncated at the requested number of sigmas** (proved). Theorems: `Props/{ApplyErrors, Supports}`. Proof: rejection loop with fuel (divergence is an explicit outcome), every returned draw within the cut-off. randnc with its termination and non-termination; errors of cavities, BPMs, magnets, rolls of supports; frame. End offsets of supports: C28.
* **C21 Injection errors** (proved). Theorems: `Props/{ApplyErrors}`. Proof: bounds through the program.
* **C22 Circumference scaling** (proved). Theorems: `Props/{ApplyErrors}`. Proof: field algebra over element lists.
* **C23 Without uncertainties apply_errors leaves a perfect machine** (proved). Theorems: `Props/{Perfect, Transformation}`. Proof: zero sigma through the program. C23_perfect_machine: for every machine without errors and with zero (or no) uncertainties, every successful apply_errors gives fields, cavity settings, lengths, injection and BPM errors as designed, supports without offsets and rolls, and the coordinate transformation belonging to zero offsets and angles. That this transformation is the identity is part of C30.
* **C24 Applying errors again replaces the old errors** (partial). Theorems: `Props/{ApplyErrors}`. Proof: bounds after each call; violations (supports raise, circumference compounds) by witness. Proved for cavities, BPMs, magnets and injection (any number of calls). Violated for supports (second call raises, or offsets accumulate) and for the circumference: C24_violated_*.
* **C25 Support offsets are the straight line between the two ends** (proved). Theorems: `Props/{Supports}`. Proof: np.interp on two points modelled; field algebra.
* **C26 Supports across the ring origin** (partial). Theorems: `Props/{Supports}`. Proof: offset part proved; roll part violated by the code: negation by witness. Offsets proved; violated for rolls (C26_violated): the roll of a support across the origin is given to the whole ring (C26_rolls_partial says exactly what happens).
* **C27 Pitch and yaw of a support** (partial). Theorems: `Props/{Supports}`. Proof: equations of _apply_support_alignment_error. Proved when the start has an offset uncertainty or the ends had equal offsets before, for supports shorter than the ring; violated otherwise (C27_violated).
* **C28 Each end of a support uses its own uncertainty** (partial). Theorems: `Props/{Supports}`. Proof: violated: negation by witness. Violated (C28_violated): the end is drawn with the uncertainty of the start. Proved: both ends obey the uncertainty of the start, hence their own if equal.
* **C29 Elements on a girder move with the girder** (partial). Theorems: `Props/{Supports}`. Proof: violated for coinciding s positions: negation by witness, _partial for distinct positions. Violated if an element before the girder has the same position (C29_violated); proved if the first element at the position is on the girder. C29_update_supports and C29_apply_errors give the exact value in all cases.
* **C30 Alignment transformations describe the rigid motion of the element** (proved). Theorems: `Props/{Transformation}`. Proof: real trigonometry, Mathlib matrices. Over the reals. For particles with transverse momentum the positions are linearised by the code; exactness is proved for particles parallel to the axis, and for the momenta of all particles.
* **C31 Cavity and radiation switching** (proved). Theorems: `Props/{LatticeSetting}`. Proof: string level model; per element equations. Rings of any length whose elements have a PassMethod. Finding (C31_cavity_not_restored): cavities off/on does not restore pass methods other than RFCavityPass, and 'cavityoff' uses IdentityPass also for cavities with length.
* **C32 Tracking mode setter** (proved). Theorems: `Props/{LatticeSetting}`. Proof: state machine over assignment lists. All histories of assignments; direct assignments to nTurns/nParticles afterwards are outside the setter.
* **C33 BPM reading formula and order** (proved). Theorems: `Props/{Beam, BeamLoss}`. Proof: index laws for the reshape, reading equation. All modes, shots, turns, bunches and random streams; the random numbers of different shots, planes, BPMs and turns are proved to be different draws. Tracking, closed orbit, cosine and sine are arbitrary parameters.
* **C34 Lost beam gives NaN, never a number, and both planes agree** (partial). Theorems: `Props/{BeamLoss}`. Proof: NaN modelled as none. Proved for the modes TBT and ORB. In PORB mode a BPM which never sees the beam makes the whole reading raise ZeroDivisionError (np.average with weights adding up to zero), C34_violated_porb.
* **C35 beam_transmission** (proved). Theorems: `Props/{BeamLoss}`. Proof: list induction. For every tracking function and random stream. With beamLostAt=0 no turn is ever counted (C35_no_tolerance).
* **C36 Injected bunches have the requested second moments** (partial). Theorems: `Props/{BeamLoss}`. Proof: matrix identity; violated for non-diagonal beamSize: witness. Proved: bunches are centroid plus matrix times fresh random numbers; the matrix has covariance diag(eigenvalues), which is the requested one for uncorrelated beams. For a correlated beam the covariance is wrong (C36_violated): the code multiplies diag(sqrt(V)) @ L instead of L @ diag(sqrt(V)). The random numbers are treated as arbitrary here; their truncated normal distribution is C95.
* **C37 first_turn: bounded, honest** (proved). Theorems: `Props/{Orbit}`. Proof: program over an arbitrary reading oracle; induction on the step count. The pseudo-inverse, tracking and the wiggling pattern are parameters; the returned list is a ghost log of the readings. Corrector lists are assumed increasing and limits not negative.
* **C38 correct: bounded, honest** (partial). Theorems: `Props/{Convergence, Orbit}`. Proof: same. Partial: the code computes variance over standard deviation, i.e. the standard deviation, not the documented coefficient of variation; C38_violated_criterion (accepted at coefficient 1), C38_violated_steady (a perfectly steady orbit is refused, 0/0), C38_violated_no_steps (maxsteps=0 may return with incomplete transmission); C38_violated_perfect (an exact correction is refused with the default options).
* **C39 stitch and balance: bounded, honest** (partial). Theorems: `Props/{Orbit}`. Proof: same; missing raise in stitch is a witness. Partial: C39_violated_setback - the exception for a setback of the transmission in stitch is created but never raised (orbit_trajectory.py:168). Everything else of the statement is proved.
* **C40 Selection of correctors upstream of the beam loss** (partial). Theorems: `Props/{Orbit}`. Proof: list induction. Partial: C40_violated_positions - if the beam survives and fewer than n correctors are given, the positions are negative and do not match; C40_violated_no_reading - called with no BPM reached (by _wiggling) it returns correctors up to the last BPM.
* **C41 BBA offsets are applied only where the measurement was good** (proved). Theorems: `Props/{Bba}`. Proof: loop equations. Flags, the change of each offset, the frame and success are proved for all tables.
* **C42 fake_bba centres the flagged BPMs on their magnets** (proved). Theorems: `Props/{Bba}`. Proof: field algebra and bound. Sizes given by the caller and sizes estimated from the unflagged BPMs.
* **C43 BBA measurement leaves no trace** (partial). Theorems: `Props/{Bba}`. Proof: state restored through the program. Proved when the call returns and each magnet can be brought back to its set-point (skew limit, unlimited compensating corrector). Violated: an exception in the measurement leaves magnet and injection shifted; a limited compensating corrector does not return. orbit_bba always raises (C78). If the fields were up to date and only registered magnets are used, the lattice itself is restored exactly (C43_measurement_exact, C43_trajectory_bba_exact).
* **C44 RF phase folding** (proved). Theorems: `Props/{Rf}`. Proof: floor arithmetic over an ordered field.
* **C45 RF corrections end at start plus reported shift** (partial). Theorems: `Props/{Rf}`. Proof: add/-add telescoping through the scan. Violated by exceptions during a measurement, which leave the cavities shifted (C45_violated_failed_reading); all other exceptions restore them (C45_frequency_failure, C45_phase_failure say which). scipy curve_fit and fsolve are arbitrary functions; the straight line fit is modelled and proved to be the best fit.
* **C46 tune_scan** (partial). Theorems: `Props/{Tune}`. Proof: grid index bounds; final set-point; violated restore by witness. Violated when the scan fails: after each point the nominal strengths are divided by the factors instead of being restored, and that is what a failing scan leaves (C46_violated_failure). Violated for even numbers of factors: the scan asks for grid points beyond the grid (C46_violated_even, with the true golden angle). The result of a successful scan (C46_result), the visited points for odd grids (C46_points) and that failures change nothing but quadrupole set-points (C46_failure_partial) are proved.
* **C47 Truncated pseudo-inverse** (partial). Theorems: `Props/{ScTools}`. Proof: Mathlib matrices, hypothesis: the SVD returned by numpy is one. The singular value decomposition is a parameter constrained by its defining equations (IsSvd). C47_violated_removal: with num_removed larger than the number of available singular values the negative slice end wraps around and some values are kept instead of none; the partial theorems cover num_removed up to their number.
* **C48 Padded addition** (proved). Theorems: `Props/{ScTools}`. Proof: list induction. Dimensions are modelled by shapes; one-dimensional arrays are added, arrays of different or higher dimension are refused.
* **C49 Weighted statistics** (proved). Theorems: `Props/{Stats}`. Proof: real inequalities.
* **C50 Injection drift fit is exact for straight trajectories** (proved). Theorems: `Props/{Injection}`. Proof: line through two points.
* **C51 Injection trajectory fit optimises the trajectory mismatch** (partial). Theorems: `Props/{Injection}`. Proof: violated (absolute mean instead of rms): witness; _partial for a single BPM. Violated: the merit is the modulus of the mean difference, in which differences cancel (C51_violated). Proved: what the merit is and that it vanishes for equal trajectories (C51_merit_partial), what is done with the minimum (C51_applied) and that failures change nothing (C51_failure).
* **C52 Model response matrix and dispersion** (proved). Theorems: `Props/{Response}`. Proof: tracking as an arbitrary function of the ring. Proved with tracking and closed orbit as arbitrary functions of the lattice. With the model ring instead of the ideal ring the machine is changed, see C53.
* **C53 Building the model ring does not touch the machine** (partial). Theorems: `Props/{Response}`. Proof: the aliasing of set-point arrays is written into the model; equation for the lattice and for what the machine loses; witness. The returned lattice is proved; the claim that SC stays unchanged is refuted: arrays of set-points are aliased (pyAT does not copy float arrays), so all dipole set-points of the machine become zero (C53_erases); SC is unchanged iff they were zero (C53_unchanged_iff).
* **C54 Measured responses leave the machine unchanged** (partial). Theorems: `Props/{ResponseMeasure}`. Proof: loop restoring lemma. Exact restoration proved for returning calls. Violated: dispersion never returns for n_steps != 2 or integer steps; measure_closed_orbit_response_matrix leaves the tracking mode at ORB; integer kicks and limits are not undone; response_matrix never returns for n_steps != 1 (default 2) and leaves the corrector kicked, also when the beam is lost.
* **C55 Aperture bisection** (partial). Theorems: `Props/{Apertures}`. Proof: interval halving; Archimedean termination. Bisection, termination, widening of bounds, area: proved for every survival predicate, given that the result of tracking is read out as intended. As it is the result is indexed by particle instead of turn, so the function raises IndexError for every lattice (C55_violated); the bounds are never accepted, because both test particles share one array (C55_always_scaled); the momentum aperture accumulates its steps (C55_violated_momentum).
* **C56 Systematic multipole errors** (partial). Theorems: `Props/{Multipoles}`. Proof: violated parts by witness; _partial for the source column. Stored tables, effect on the field and framing are proved. Violated parts: the column of the main field's polynomial is used for both target polynomials and the other column is ignored (C56_violated_columns, C56_violated_skew_from_normal); the caller's table is changed (C56_violated_table). That the stored columns are views of the caller's table is the subject of C92.
* **C57 Random multipole errors** (proved). Theorems: `Props/{Multipoles}`. Proof: bounds. All tables, magnets (with repetition), streams; several calls; framing also for failing calls.
* **C58 LOCO parameter selection** (partial). Theorems: `Props/{Loco}`. Proof: list algebra. Proved for the Levenberg-Marquardt variant given a solver which returns a minimum (the solver of scipy is a parameter): groups, linearity, exact recovery. The Gauss-Newton variant is only right if all parameters are fitted, weights are 1 and the information is in the sums over correctors (C58_gauss_newton_partial); otherwise it is wrong (three witnesses C58_violated_gauss_newton_*): the right hand side uses the matrices of the first parameters instead of the selected ones, weights enter twice, and everything is summed over correctors.
* **C59 Equally spaced selection** (partial). Theorems: `Props/{Loco}`. Proof: list slicing. The subsequence and its spacing are proved. The size is wrong: one less than requested if the number of intervals divides the number of elements, and otherwise up to nearly twice the requested size (C59_count says exactly when it is right; C59_violated_count is a witness). Requests for one element raise ZeroDivisionError, for too many ValueError.
* **C60 Selecting elements by name** (proved). Theorems: `Props/{ScTools}`. Proof: list induction. The regular expression search is an arbitrary predicate on family names.
* **C61 DotDict** (partial). Theorems: `Props/{ScTools}`. Proof: inductive nested dictionaries. C61_violated_methods: reading a stored entry whose name is that of a dict method (items, keys, update, ...) as an attribute gives the method. The partial theorem covers every other name.
* **C62 verify_structure rejects exactly the inconsistent machines** (proved). Theorems: `Props/{History}`. Proof: program returns either error or the same state. Missing CMlimit raises AttributeError (C62_no_limit), a missing SIG entry KeyError; double registrations only log. Log messages are not modelled.
* **C63 Realised cavity fields** (proved). Theorems: `Props/{Setpoints}`. Proof: equation per cavity attribute through the set-point loop.
* **C64 Rolls and slopes of supports are passed on** (partial). Theorems: `Props/{Supports}`. Proof: composition of the support equations (C25, C26) with update_supports. For layouts without supports across the origin; for a plinth across the origin it is violated (C64_violated_across_origin). The value is taken at the first element at the same position.
* **C65 Child magnets are placed like their master** (proved). Theorems: `Props/{Supports}`. Proof: equation of the copy loop from masters to children.
* **C66 Magnets follow the tilt of their support** (partial). Theorems: `Props/{Transformation}`. Proof: real trigonometry on the transformation of C30; the vertical part by witness. The angles which enter the transformation are proved to be the slopes of the support, so that the horizontal direction follows it. The vertical direction does not: a positive slope is used as a positive turn about x, which points the magnet downwards (C66_violated_pitch).
* **C67 Records and machine stay consistent over every history** (proved). Theorems: `Props/{History}`. Proof: invariant over the inductive type of API calls, with and without exceptions. Without exceptions all ordinates exist; a failed registration leaves ordinates behind that do not (C67_violated_failed_registration).
* **C68 Design data of magnets are written only by registration, and are the design** (partial). Theorems: `Props/{History}`. Proof: write sets of all calls; induction over histories; witness for late registration. Who writes design data: proved for all histories. Nominal = design: proved when successful registrations come first; violated when magnets are registered after errors were applied, because register_magnets copies the present PolynomA/B.
* **C69 Phase and energy error** (partial). Theorems: `Props/{Rf}`. Proof: equation of the program; witness for the folding. Violated: the phase is folded modulo the wave length in meters instead of one (C69_violated).
* **C70 Circular statistics** (partial). Theorems: `Props/{Circular}`. Proof: real analysis of the mean direction; witness for the rms. Violated for circular_rms, which folds the squares of the data with the period of the data (C70_violated_rms); the statements on mean and error are proved.
* **C71 BBA evaluation finds the centre of the magnet** (partial). Theorems: `Props/{Bba}`. Proof: the linear fit is exact on linear data; witnesses for the degenerate cases. Exact centre proved for the linear fit. Violated: too few data raise ZeroDivisionError for the whole procedure; noise-free BPMs give no result; a magnet without effect can be accepted because variances are used as errors.
* **C72 Fields follow the set-points: no hysteresis** (proved). Theorems: `Props/{Restore}`. Proof: read and write sets of the update; induction over sequences of calls. Proved for all sequences of successful calls (Spec.Restore: runTrims). Calls that raise half way leave set-points changed but the field not (C72_violated_exception), so histories with exceptions are excluded.
* **C73 LOCO Jacobian** (partial). Theorems: `Props/{LocoJacobian}`. Proof: equation per entry; the pool is a map over arbitrary chunks; witnesses for the defaults. Proved for useIdealRing=False, set-points being added to and skew quadrupole limits not in the way: every entry, independence of the distribution over processes (for runs which succeed), machine left alone, gains. Violated with the default useIdealRing=True (quadrupole matrices are zero) and with includeDispersion=True (always ValueError for the full Jacobian; otherwise the additional column does not depend on the quadrupole).
* **C74 Chromaticity and tune fits** (partial). Theorems: `Props/{Chroma}`. Proof: the minimiser is an arbitrary sequence of evaluations; invariant over it; witnesses. Proved: nothing else changes, whatever the minimiser does, and the set-points are those before the call rounded towards zero plus the last point tried (C74_chroma_partial). Violated: the solution is not set (C74_violated_solution), set-points are rounded to integers (C74_violated_rounding), a NaN target is not an error (C74_nan_target), the tune fit always raises (C74_violated_tune).
* **C75 Reading of all elements** (partial). Theorems: `Props/{AllElements}`. Proof: index laws and comparison with the program of bpm_reading; witnesses. Positions, readings, random numbers: proved. The agreement with bpm_reading holds for one shot in the modes TBT and ORB, including exceptions (C75_one_shot); it is violated for several shots (plain instead of weighted mean, C75_violated_shots) and in PORB mode (C75_violated_porb).
* **C76 Requests in order are accepted at any time** (partial). Theorems: `Props/{Requests}`. Proof: totality of each call under a well-formedness predicate which every call preserves; witnesses. Proved in full for correctors and updates; for set_magnet_setpoints and set_cavity_setpoints only for floating point steps, since integer steps raise TypeError (C76_violated_integer_steps). Uncertainties have to fit: register_magnets accepts a single number, or too short an array for a combined function magnet, and then apply_errors and all later updates raise (C76_violated_scalar_uncertainty, C76_violated_short_uncertainty).
* **C77 The functions named as in the Matlab toolkit follow its conventions** (partial). Theorems: `Props/{MatlabIndex}`. Proof: equations of the wrappers with the functions they call; witnesses for those which raise. Correctors, magnets, refused planes and types, random multipoles, the feedback functions and the transformation are proved. Systematic multipoles: both polynomials get one column (C56); the phase correction restores the number of turns only on success. Violations proved: the default reference point of SCgetTransformation is refused, SCsynchEnergyCorrection always raises and leaves nTurns changed, SCsynchPhaseCorrection leaves nTurns changed on failure, SCBBA silently does nothing for unknown modes, SCpseudoBBA ignores sigma.
* **C78 Orbit-based alignment can be completed** (partial). Theorems: `Props/{MatlabIndex}`. Proof: equation of the program: it raises for every argument. The negation is proved: orbit_bba raises for all arguments. What holds: only the random-number position can have changed.
* **C79 The lattice correction with a LOCO fit reaches the wanted gradients** (partial). Theorems: `Props/{LocoWrapper}`. Proof: loop equation per group of magnets; contraction of the gradient error; the rest raises for every input. Set-points, contraction factor and exactness are proved for all inputs. Violations proved: loco_measurement never completes, loco_fit_parameters raises for any non-empty family, loco_cm_structure raises with its default steps. Not modelled: loco_model.
* **C80 The correction of BPMs with a LOCO fit removes their errors** (partial). Theorems: `Props/{LocoWrapper}`. Proof: loop equations for gains and rolls; mean of the gains; witnesses. Gains, mean, recovery, rolls and frame are proved. Violations proved: the structure of loco_bpm_structure (no FitCoupling) never works, the default outlier limit raises when gains are fitted, fitted kicks can not be applied.
* **C81 Multipole tables are read from files as they were written** (partial). Theorems: `Props/{ReadMultipoles}`. Proof: the table as a list of rows, unique main component; witnesses. Reading is proved for files with a unique main component; application under the restriction of C56. Violations proved: an ambiguous table raises TypeError instead of continuing; the returned order and type do not fit SCsetMultipoles.
* **C82 Ramping up errors reaches the full errors** (partial). Theorems: `Props/{RampErrors}`. Proof: the program raises for every machine; induction over the list of scales; field algebra for one step. Violated. SCrampUpErrors never completes: scaleSupport iterates over the rows of the 2 x n ordinates (IndexError without sections, TypeError with them, as pyAT elements are not subscriptable). SC0 is an alias of SC, so the scales compound (C82_violated_compound; two steps leave half of the injection error). Proved: a single circumference step leaves the given fraction. Scaling of magnets, BPMs and cavities is not modelled (never reached).
* **C83 After apply_errors the fields agree with set-points and errors** (proved). Theorems: `Props/{Consistent}`. Proof: read set of the magnet update does not contain cavity fields; C14 and C72 for the rest. For calls that return. That update_supports would change nothing is C84.
* **C84 update_supports is idempotent and its result stays in force** (proved). Theorems: `Props/{Alignment}`. Proof: update_supports as a function from read to written attributes which are disjoint; invariant over all operations. Aligned says update_supports would change nothing; Operated (Spec/Alignment.lean) are the sequences of operations. BpmsApart is the stated restriction.
* **C85 Every error is made from random numbers of its own** (proved). Theorems: `Props/{Draws}`. Proof: loops flattened to one loop over (element, name); every step draws from its own interval of the stream, so the intervals are disjoint. Errors of supports are not part of the statement: the end of a support without own uncertainty copies the start by design, and offsets of both ends are corrected for pitch and yaw (C64, C65).
* **C86 Errors can be applied to every machine in order** (proved). Theorems: `Props/{Applicable}`. Proof: apply_errors run with a growing number of passes: each stage settles on an outcome which no longer changes; totality of every stage from invariants carried through the earlier ones. Non-finite results of divisions are exceptions in the model (Err.nonFinite), so the theorems also exclude inf and nan from division by zero. A magnet at right angles gives inf in numpy, not an exception.
* **C87 Orbit corrections converge on a linear machine** (proved). Theorems: `Props/{Convergence}`. Proof: clipping is inactive for unsaturated correctors, so one step is an affine map of the deviation; contraction in the maximum norm, induction over the steps. For calls which return; linearity is required for the readings of the call only. Without noise; scaleDisp = 0 (no frequency correction).
* **C88 Registrations in order give a machine which can be used** (proved). Theorems: `Props/{Registrable}`. Proof: invariant of the registered machine (fields of the lattice kept, fresh attributes, fitting uncertainties, ends of supports initialised), preserved by every call in order; progress of each call; with C86 and C76. What 'in order' means is spelled out call by call in Spec/Registrable.lean. Later requests as in C76 (steps not given as integers, otherwise C76_violated_integer_steps).
* **C89 Missing data take no part in the statistics** (partial). Theorems: `Props/{Missing}`. Proof: model of the wrappers with masked arrays; masked entries drop out of every sum; violation: closed form of the error of two points a quarter of a period apart. circular_nanerror violates it without errors to weight: the sample size counts the missing data (C89_violated_error), so that the error is too small (C89_understated). With usable errors, or without missing data, it holds. One-dimensional arrays (axis=None).
* **C90 Invariants of whole commissioning sessions** (partial). Theorems: `Props/{Session}`. Proof: one relation respected by the elementary operations (set-points, updates, BPM offsets, model elements, random numbers) carries over to every correction and measurement, then to sessions by induction; violation: set_magnet_setpoints with order 0. Everything but the limits is proved for all sessions. Limits: set_magnet_setpoints with order 0 (and the functions which pass an order on) sets a kick without looking at the corrector limit (C90_violated_dipole_component); for sessions without such a request the limits are respected, if elements with corrector limits are neither drifts nor cavities (C90_limits_partial).
* **C91 Calls which concern different elements do not notice each other** (proved). Theorems: `Props/{Commute}`. Proof: methods run on two machines which agree about the elements concerned: same outcome, still agreeing, the rest untouched (a two-run simulation which composes); exchange of two calls, then permutations by induction. Supports and calls which draw random numbers concern the whole machine and are not among the calls considered. The order in which entries were added to the dictionaries of uncertainties is not observed. Calls which set systematic errors are given tables of their own (see C92). C91_same_element and C91_child show that the hypothesis about different elements is needed.
* **C92 Systematic multipole errors stay what they were set to** (partial). Theorems: `Props/{SharedTables}`. Proof: the method once more with the tables of the caller as shared memory: a state with tables and views; invariant: every view shows its table; simulation of the model with copies as long as tables are used once. Violated: the stored columns are views of the caller's table (C92_follows_table). A second call with the same table for another component erases that component from the errors given earlier to other magnets (C92_violated_second_call, C92_violated_field); what the caller writes into the table becomes the errors (C92_violated_write). Proved: as long as every call has a table of its own, the machine is the same as with copies (C92_own_tables_partial), and errors stay as long as nobody uses the table again (C92_stay_partial).
* **C93 On an error-free machine the measured response is the model response** (partial). Theorems: `Props/{Agreement}`. Proof: both columns are brought to the form (orbit of the kicked lattice - orbit) / step; the kicked machine and the kicked design have the same optics, shown attribute by attribute; a BPM without errors shows the orbit. C93_dispersion covers closed orbits and the turns of a single particle injected without jitter, with two measurements (n_steps=2; more steps always fail). Violated for orbit responses of correctors which drive other magnets (MasterOf): the machine moves them along, the model does not (C93_violated_children). Otherwise proved as long as no corrector reaches its limit; BPMs in the order of the ring, as pyAT wants them.
* **C94 Measurements with the same seed see the same noise** (proved). Theorems: `Props/{CommonNumbers}`. Proof: two runs side by side: equal positions in the stream are kept shot by shot, so that both use the same draws; weighted means of shifted shots. For readings which return. The displacement is stated for the modes TBT and ORB (the pseudo orbit is the mean over the turns which a BPM sees, so that it is displaced by the mean if the same turns are seen). Readings are made of the numbers drawn (Spec.MadeWith); where the numbers come from is C33.
* **C95 Truncated random numbers are independent and normal within the cut-off** (proved). Theorems: `Props/{Truncated}`. Proof: rejection sampling as serving a queue of slots: the probability that slots get numbers in given sets satisfies a renewal equation, solved by induction over the slots; product measures are determined on boxes. Almost sure termination is part of the statement (C95_calls, C95_randnc). With cut-off zero, which the property excludes, randnc almost surely never returns (C95_zero_cutoff_never_returns).
* **C96 Errors are uncertainties times independent truncated normal numbers** (proved). Theorems: `Props/{ErrorLaw}`. Proof: the calls of randnc made by apply_errors listed in order with their causes; the joint law of all numbers returned by a list of calls (C95) is transported to the causes; almost sure success from C86 because small numbers almost surely keep coming. The property is about errors of cavities, BPMs, magnets, injection and circumference; support errors are outside it (their ranges are C24, C25 and C86). Almost sure success is for machines in order in the sense of C86 whose transformations can be computed.
* **C97 Errors are centred, uncorrelated, and as large as their uncertainties** (partial). Theorems: `Props/{ErrorLaw}`. Proof: mean by symmetry, products by independence, mean square by comparing the integral inside and outside the cut-off with that of the normal law; limit by exhaustion of the line. Mean and correlations are proved. The statement about the rms value is violated: numbers beyond the cut-off are drawn again, so the rms value is strictly smaller than the uncertainty for every cut-off (C97_violated_rms) and only approaches it for large cut-offs.
* **C98 BPM readings are made from independent truncated normal numbers** (proved). Theorems: `Props/{ReadingLaw}`. Proof: call structure of a measurement (which draws of which sizes in which order), labelled law of consecutive draws (C95), deterministic description of the reading from its numbers. How a reading is computed from the numbers is Spec.ReadFrom (bunches: Spec.BunchFrom, shots: Spec.shotsAt; in pseudo-orbit mode the readings are means over turns). Hypotheses: six injection jitters, and particles are lost in both planes at once; that readings are obtained in pseudo-orbit mode needs BPMs which see the beam in some turn (C99). In orbit mode numbers of a shot are shared by all turns, as only one turn is computed.
* **C99 Measurements on a machine in order come to an end** (partial). Theorems: `Props/{ReadingLaw}`. Proof: fixed outcome for all large numbers of passes, carried through the shots; positivity of the sum signals; in PORB mode the weights of an unreached BPM add up to zero. Proved for turn-by-turn and orbit mode, and in 'PORB' mode if every BPM sees the beam in some turn. Violated in 'PORB' mode otherwise: np.average raises ZeroDivisionError as soon as one of the requested BPMs sees no beam in any turn, so that all readings are lost (C99_violated_pseudo_orbit).
* **C100 BPM readings are unbiased and shots average the noise** (partial). Theorems: `Props/{ReadingLaw}`. Proof: closed form of the mean over shots of a steady beam; each noise number is independent of all sum signals, hence mean zero and uncorrelated; mean square by C95. Proved: the measurement almost surely succeeds, mean and correlations, and that the mean square deviation is at most noise**2 / nShots up to a factor (1 - 2 |SumError|)**-2. The exact size is violated: the noise is cut off at 2 sigma by drawing again, so the rms deviation is strictly smaller than the noise level says (C100_violated_noise_level).
* **C101 Elements can be registered in one call or in several** (partial). Theorems: `Props/{Pieces}`. Proof: each registration is a loop over the elements whose body acts on one element only and is idempotent; loops over pieces and over the union are compared element by element. Proved in full for BPMs, cavities and magnets (masters: distinct ordinates, the columns of MasterOf side by side). Supports: proved if no element is an end of supports in both calls; violated otherwise, because register_supports clears the uncertainties of both ends: the support registered first loses its uncertainties without notice when a second one ends at the element where it begins (C101_violated_supports).
* **C102 Corrections know the machine only through its control room and its instruments** (proved). Theorems: `Props/{Instruments}`. Proof: two runs are walked side by side (relational frame Sync): every operation reads only set-points, limits and design data besides calling the instruments; machines that differ in uncertainties and alignment records are shown to be such a pair. Whole sessions (C102_session, C102_setpoints_and_readings), returned values (C102_measurements, C102_trajectories), and the class of machines differing in uncertainties and records of alignment, for tracking which does not read these records (C102_records, C102_uncertainties, C102_bpm_or_support). loco_measurement is outside the sessions considered. C102_not_for_fake_bba shows the boundary: fake_bba does depend on the true offsets of the magnets.
* **C103 Errors are in proportion to the uncertainties** (proved). Theorems: `Props/{Scaling}`. Proof: two runs of apply_errors with the same generator, a relation between rings in which all error attributes are multiples and all others equal, kept by every step; interpolation along supports is linear.. C103_proportional (one factor), C103_one_by_one (a factor for each uncertainty; supports share one, as they are connected), C103_others_unchanged, and C103_both_succeed for machines in order in the sense of C86. Uncertainties given for cavity set-points replace the set-point and are no errors.
* **C104 The elements of an SC object are objects of their own** (proved). Theorems: `Props/{Objects}`. Proof: elements as objects in memory, lattices as lists of addresses, SC objects as two lists; invariant: the addresses of all SC objects are distinct and not in the given lattice; simulation by values for every history of making, copying and writing.. Model/Objects.lean models elements as objects in memory with lattices as lists of addresses, Lattice.deepcopy() preserving sharing. C104_as_values is a simulation for all histories; C104_new_object, C104_copied_object (new objects only), C104_only_there, and C104_agrees_with_model, which justifies that all other parts of the model treat elements as values. An element is copied with everything in it, so arrays inside elements are not modelled as objects.
* **C105 Misalignments of supports superpose** (proved). Theorems: `Props/{Superposition}`. Proof: three executions side by side: every step of the interpolation and of the assignments is additive in the misalignments (SumE, TriE). Superposition for support_offset_and_roll (with success), for update_supports, and as decomposition into the three kinds of supports.
* **C106 A failed registration can be corrected** (partial). Theorems: `Props/{Spoiled}`. Proof: lists of registered elements only grow along every history (`ListsGrow`), every later use of all BPMs / magnets / cavities needs existing elements (`…_needs` lemmas); violated for ordinates outside the ring; containment of the damage from the frames of registrations. Violated: the lists of registered elements are extended before the ordinates are used, and nothing ever takes an ordinate out again, so one ordinate outside the ring makes apply_errors, update_supports and readings of all BPMs raise for ever (proved for every object and every later sequence of calls). Proved in general: the damage is confined to the named elements, and with ordinates of the ring no non-existing element ever gets registered.
* **C107 Misalignments of supports are uncertainties times independent truncated normal numbers** (proved). Theorems: `Props/{SupportLaw}`. Proof: a loop rule for steps which make several labelled calls of randnc (`forEach_labels`) gives the calls of supports after those of C96; their joint law by the same argument; arithmetic of pitch, yaw and end offsets from the model of `_apply_support_alignment_error`. The numbers of the end are multiplied by the uncertainty of the start, not by the one registered with the end; that this contradicts the documentation is C28.
* **C108 With the same seed a machine gets the same errors, whatever it was used for before** (proved). Theorems: `Props/{Reproducible}`. Proof: two-run relation `Twin` (same registrations and random numbers, attributes equal outside a set `D`) through the stages of `apply_errors`, each stage removing what it assigns from `D`; the writes of `update_supports` are the same in both machines; one frame lemma per use of the machine (`run_use`). C108_drift_cavity shows that cavities with pass method DriftPass have to be excluded: switched on they no longer take part in the change of the circumference. Applying errors twice is not covered, see C24.
* **C109 Additive changes of set-points add up, in any order** (proved). Theorems: `Props/{Additive}`. Proof: `Spec.Increment`, `Spec.Unclipped`: one request adds its amount to the set-points (per request, from the set-point lemmas), sequences by induction; the whole machine from the totals by C72 (fields are a function of set-points). Cavities separately, with the realised settings as a function of the set-points.. C109_limits_matter shows that the condition on the limits is needed. Values of integer type and repeated ordinates are C16 and C17, dipole compensation is C18.
* **C110 Points, area and automatic angles of the dynamic aperture** (partial). Theorems: `Props/{Polar}`. Proof: `Model/Polar.lean` over the real numbers, `np.arctan2` as the argument of a complex number, `np.cosh` of complex numbers; the area by the shoelace formula, whose change under a shift only depends on the ends of the polygon (induction over the points).. Proved: round trips, centring, area for closed scans, automatic angles of apertures wider than high. Violated: the area is not that of the returned points if the scan does not end where it began (C110_violated_open_scan); returned angles lie between -pi and pi (C110_violated_angles); no automatic angles exist if the aperture is at least as high as wide (C110_violated_auto). The model starts from the radii found; see C55 for the search itself.
* **C111 The distribution of the errors is a matter of the registered uncertainties only** (proved). Theorems: `Props/{SameLaw}`. Proof: `Spec/SameLaw.lean`: the errors of the finished machine as random variables on any probability space carrying the stream of numbers. By C96 they are almost surely the uncertainties times independent numbers with laws given by the cut-offs; the joint law of independent variables is the (infinite) product of their laws, hence the same for both machines. The order of keywords does not change the look-up in the tables (induction over the registrations).. Equality of measures on the space of all error components. Rings need a drift and a non-zero circumference (Scalable). The misalignments of supports are not among these errors (see C107 for their law). For a given seed the errors do depend on the order of keywords (C111_seed).
* **C112 How the uncertainties were registered has no influence on anything that follows** (proved). Theorems: `Props/{Equivalent}`. Proof: `Spec/Equivalent.lean`: equality of machines up to the order of entries in the dictionaries of uncertainties. Congruence: every method, function by function, run on two equivalent machines gives the same result and equivalent machines (`Sync`); sessions by induction; combined with C91 and C101.. Equivalent machines (Spec/Equivalent.lean) are equal except for the order of the entries of the dictionaries of uncertainties. All steps of Spec.Session are covered. C112_registration_order rests on C91 (which calls commute), C112_pieces on C101. The order of the keywords of one element does matter for a given seed (C112_keywords).
* **C113 Corrections leave the target orbit of the user alone** (partial). Theorems: `Props/{Target}`. Proof: the array of the target orbit as a second component of the state (`targetHistory`), the part of `stitch`/`balance` before the array is written being separated and shown to be their beginning; invariant: first-turn entries kept, second-turn entries all kept or all zero; counterexample by evaluation. Violated: stitch and balance set the target of the second turn to zero in the array of the caller, as the reshaped array is a view (orbit_trajectory.py:145-147, 212-214); every such call that returns has done so (C113_lost), and a following correction steers to another target (C113_violated). Proved: it holds for sequences without stitch and balance and for targets without second turn; in general the entries of the first turn are kept and those of the second turn are all kept or all lost.
* **C114 The noise of a measurement is independent of the errors and of earlier measurements** (proved). Theorems: `Props/{Feedback}`. Proof: Props/Feedback: readings and adjustments in turn as a recursion over the machine; the calls of `randnc` are labelled with reading, shot and stage, the labelled law of C98/C107 makes all their numbers independent; causality by induction over the readings, termination with `Settles`.. Adjustments are arbitrary functions of the positions read so far and the machine, which do not draw random numbers and keep the settings that determine how many numbers a reading uses.
* **C115 The search for transmission tries kicks within the range of its pattern** (partial). Theorems: `Props/{Search}`. Proof: the pattern of the search for transmission (`Model/Donut.lean`, over the reals) has its points between the two radii; telescoping of the differences. Kicks during a search by induction over steps and rounds (`Lemmas/Search.lean`): each corrector is at the start plus whole rounds plus a point. Violated by the code: rounds accumulate and failed searches are not undone.. Proved: the pattern has its points between the two radii (exact squared radius of each, first on the inner, last on the outer circle), and the one in use 32 points within 1 mrad (C115_pattern, C115_pattern_in_use); whatever the outcome of a search, each kick differs from that at the start by at most seven times the last point plus one point, so by at most eight times the outer radius (C115_kicks_partial); a search that succeeds within the first round leaves every corrector within the outer radius (C115_first_round_partial). Violated: every further round starts where the previous one ended, so kicks add up to eight times the outer radius, and a failed search does not take them back (C115_violated).
* **C116 Log messages appear once and where they belong, and debug modes leave no trace** (partial). Theorems: `Props/{Logging}`. Proof: loggers as a tree with levels and handlers (`Model/Logging.lean`, including the rules of python logging); the levels of the console handlers partition the numbers; programs with debug modes by induction: only levels of debugged loggers change, to what they were effectively. Violated by the code: log files that cannot be opened, later changes of levels, debug messages shown twice.. Proved: each message exactly once on the right stream after any set-up (C116_shown_once) with the level set for the nearest module (C116_level); log file once (C116_log_file); after programs with nested debug modes, ended by exceptions or not, all messages appear as before, given that the log files can be opened (C116_debug_leaves_partial). Violated: if the log file cannot be opened the logger stays at DEBUG (C116_violated_file); the former effective level is set on the logger itself, which then no longer follows later changes (C116_violated_later); debug messages appear twice in a debug mode if the console shows them anyway (C116_violated_twice). The levels and handlers of python's logging module are part of the model.
* **C117 The figure of the supports shows each support where the machine has it** (partial). Theorems: `Props/{PlotSupport}`. Proof: lines of the figure as pairs of points (`Model/PlotSupport.lean`); induction over the supports; along a line across the origin the interpolated value at the end of the ring lies on the straight line. Violated by the code: limits that leave out a support raise an IndexError.. Proved: every figure that is drawn passes through the right points for all supports of a type (C117_shown_partial), for girders on the floor through the offsets of support_offset_and_roll (C117_agrees_partial), and the whole ring is drawn (C117_drawn). Violated: with x_lim that leaves out any support an IndexError is raised, because the values are collected only for supports in range but looked up by the position among all supports (C117_violated). Only the lines of individual supports are modelled, not the markers of magnets and BPMs, legends and colours.
* **C118 For the supports it does not matter from which element the ring is counted** (partial). Theorems: `Props/{Origin}`. Proof: a relation between the two ways of counting (`Spec.Restarted`); coverage of elements and distances along supports are cyclic, positions differ by a constant and the circumference; then level by level through sections, plinths and girders with C25. Violated by the code: rolls with a support across the origin, supports below the whole ring ending with an element without length.. Proved: offsets of all elements for every layout in which both origins are handled as in C25 (C118_offsets_partial); roll, pitch and yaw if no support crosses either origin (C118_rolls_partial); the elements after update_supports if the last elements before the two origins have a length (C118_elements_partial). Violated: with a girder across the origin an element on no support gets a roll only for one way of counting (C118_violated_roll, see C26); a girder below the whole ring displaces nothing if counted so that its two ends, different elements at the same position, have the end first (C118_violated_offset).
* **C119 The errors of a BPM are its own** (partial). Theorems: `Props/{Arrays}`. Proof: arrays as objects in memory (`Model/Arrays.lean`); invariant over histories: which references are shared. Violated by the code: the noise of BPMs is the registered array itself.. Proved for every history: writing into errors other than noise (C119_own_partial) and assigning new arrays to any error (C119_assign) change nothing else; writing into the noise changes no other error of the machine if every array was registered for one field of one BPM only (C119_noise_partial). Violated for the noise in general: apply_errors stores the registered array itself, which all BPMs of one register_bpms call share, so that other BPMs, SC.SIG and the array of the caller change as well, and applying errors again keeps the change (C119_violated).
* **C120 The figure of corrector strengths shows the strengths and their distribution** (partial). Theorems: `Props/{PlotStrengths}`. Proof: bars and the curve of `np.histogram` counts (`Model/PlotStrengths.lean`); induction over bins: sums of counts are numbers of values below an edge. Violated by the code: a plane without correctors.. The contents of the figure are proved for all machines (C120_bars, C120_distribution), and that there is a figure if both planes have correctors (C120_drawn_partial). Violated otherwise: with correctors in one plane only, np.histogram with no bins raises a ValueError (C120_violated). np.histogram and np.cumsum are modelled from their documentation, with exact bin edges.
* **C121 The figure of the phase space shows every particle where it is** (partial). Theorems: `Props/{PhaseSpace}`. Proof: tracking and closed orbits as arbitrary functions (`Model/PhaseSpace.lean`); case analysis on what is drawn. Violated by the code: several ordinates.. The contents of every figure that is drawn (C121_points_partial, C121_marks_partial), the refusals (C121_refused) and that there is a figure for one ordinate (C121_drawn_partial) are proved for arbitrary tracking. Violated for several ordinates: the number of points and of their colours differ, which is a ValueError (C121_violated). From reading the code also without a registered cavity (IndexError).
* **C122 Plotting the lattice shows the range asked for and leaves no trace** (partial). Theorems: `Props/{PlotLattice}`. Proof: lattices with plot ranges and a font size, drawing as an arbitrary function which may raise (`Model/PlotLattice.lean`). Violated by the code: nothing is restored after an exception.. Proved for all figures that are drawn (C122_restored_partial); elements never change (C122_elements). Violated if drawing fails: plot range and font size stay those of the failed figure, and the next figure without a range shows the wrong one (C122_violated). The functions that draw are an arbitrary function which may raise.
* **C123 The curves of the apertures go through the apertures of the elements** (proved). Theorems: `Props/{PlotLattice}`. Proof: curves as lists of points with gaps (`Model/PlotLattice.lean`); membership in the joined curves element by element.. Proved for all rings, reference points and cut-offs (C123_apertures).
* **C124 Without noise nothing depends on the state of the random number generator** (proved). Theorems: `Props/{Noiseless}`. Proof: `SameInstruments` (C102) once more, for the relation “the same machine without noise, any state of the generator”: the numbers drawn are multiplied by zeros (noise, jitter, sum error, square roots of the eigenvalues of the beam matrix) before they are used, and set-points touch none of these. The columns of the orbit response follow from C54 and the independence of each reading.. Proved for all sessions (C124_session) and all measurements (C124_measurements, C124_repeated, C124_columns), for generators whose truncated numbers are always found (otherwise randnc does not return) and a square root with sqrt 0 = 0. Tracking and closed orbit are arbitrary functions of the machine.
* **C125 The synoptic shows each magnet, corrector and monitor where it is** (partial). Theorems: `Props/{Synoptic}`. Proof: shapes as lists of corners (`Model/Synoptic.lean`), the class of an element as a parameter; element by element (`Forall₂`), with linear arithmetic for the corners. The default argument of `_get_shape` makes multipoles look like monitors (violated).. Proved for correctors, skew quadrupoles and BPMs (C125_correctors), which can be drawn if they have a length and the skew quadrupoles a gradient (C125_drawn), and for dipoles, quadrupoles, sextupoles and monitors (C125_magnets_partial), which can be drawn under the same condition (C125_magnets_drawn). Violated for other multipoles: they are drawn with the shape of a monitor, because the name of the shape is not passed on (C125_violated_multipoles). Colours, labels, axes and family names are not modelled.
* **C126 Without noise the number of shots of the BPM readings has no influence** (proved). Theorems: `Props/{Noiseless}`. Proof: The relation of C124 with a second parameter, which pairs of numbers of shots are compared: the shots of a reading are equal, so that their average, with lost shots left out, does not depend on how many there are (`calm_reading`), and the error of the average is zero. Everything else follows from `SameInstruments` (C102), whose view of the control room leaves out the number of shots..
* **C127 Without noise a reading of some BPMs is part of the reading of all** (proved). Theorems: `Props/{BpmSubset}`. Proof: One-sided version `Follows` of the relation of C124: whenever the first program succeeds, so does the second, with related results. Without noise the offset, calibration and roll of a BPM act on that BPM alone, so that the cell of a BPM in a turn is the same function of the tracked particles in both readings (`SameCells`, `quiet_reads`); `chosen_flatten` takes this through the flattening turn by turn. Orbit response and dispersion are compositions of readings and set-points.. response_matrix is not part of the claim: its step depends on all BPMs which are read.
* **C128 Offsets of BPMs shift readings by constants and do not enter measured responses** (proved). Theorems: `Props/{BpmOffsets}`. Proof: Two runs are followed step by step with the relation `Sync` of C124: the machines differ only in the attributes Offset and SupportOffset of BPMs, which set-points neither read nor write and the beam does not notice. A reading is the tracked position minus the offset, times the calibration, plus noise, so that it differs by a constant per BPM and plane; averages over shots differ by the same constant and standard errors do not. Differences of two readings, counts of BPMs with beam and the choice of kicks made from them are then equal.. The mode PORB is not part of the claim for readings, dispersion and response matrix: there readings are averaged over turns and lost turns enter.
* **C129 A target orbit takes the place of offsets of the BPMs in the orbit correction** (partial). Theorems: `Props/{TargetOrbit}`. Proof: The relation of C128 is carried through a round of `correct`: readings and target differ by the same constants, so that their differences, and the kicks computed from them, are equal (`LogLess.kicks`). `correctLoop_round` splits a round from the decision to stop. The decision is made from the rms of the readings (orbit_trajectory.py:342-344, 311-318), in which the target does not occur; hence only rounds are compared, and `C129_violated_stop` gives two machines one of which is corrected while the other correction fails. For `balance` the differences of two turns do not contain the constants at all (`plane_two`). In `first_turn` BPMs without beam count as reading zero, whatever the target: `C129_violated_first_turn`. `stitch`, which does the same, is not treated.. The code violates the claim for more than one step: the criterion for stopping uses the readings, not their deviations from the target, so that one correction may stop or fail where the other goes on (C129_violated_stop). In first_turn BPMs without beam count as reading zero whatever the target (C129_violated_first_turn). Proved: a correction with one step, and equality of all steps as far as both corrections go, for correct and balance.
* **C130 The options of a registration decide about the type of a magnet** (partial). Theorems: `Props/{MagnetOptions}`. Proof: The effect of one registration on the attributes CombinedFunction, SkewQuadLimit and CMlimit is followed through `_optional_magnet_fields` (`optional_ok`); the rest of the registration does not write them (`registerMagnetElem_split`). `Options given r r2 i` of Spec/MagnetOptions.lean says what a set of given values makes of a magnet; it composes, later values winning (`Spec.Options.trans`), so that induction over the list of magnets and over the calls gives the claim. The value of CF is not read (simulated_commissioning.py:1058-1059), hence `C130_violated_false_flag`. MasterOf is the subject of other properties.. The code violates the claim for the flag CF: its value is not looked at, so that a magnet registered with CF=False is marked as a combined function magnet (C130_violated_false_flag). Proved, with 'CF given' in place of 'CF set': one call (C130_options_partial) and every sequence of successful calls (C130_last_given_partial).
* **C131 Correctors and skew quadrupoles keep to the limits they were registered with** (proved). Theorems: `Props/{RegisteredLimits}`. Proof: `session_options` extends `C130_last_given_partial` to sessions of registrations and requests in any order: requests keep what the options decide (`request_keeps`). `C10_addressed_within` and `C15_skew_limit` bound kicks and skew set-points by the stored limits. The limit zero of the plane which was not given leaves only the kick zero.. Other ways to write the dipole component are not limited, see C10_order_zero_bypasses_limit.

## Further observations

Seen while reading the code, not stated as theorems:

* `apply_lattice_correction` returns None; replacing outliers changes the gains of the caller.
* A negative `CMlimit` flips the sign of the kick.
* `RF_ERROR_FIELDS` has "VoltageSetpoint" where the attribute is "VoltageSetPoint".
* Registering BPMs or magnets again resets their errors (T1 and T2 for magnets).
* The order of requested BPMs is ignored by `bpm_reading`.
* `stitch` and `balance` change the array `reference` of the caller.
* `SCfeedbackRun` ignores `weight`, `SCfeedbackStitch` ignores `nRepro`, `SCpseudoBBA` ignores its sigma.
