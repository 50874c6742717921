{"id": "C01", "title": "Historic record size is exact", "statement": "Every historic snapshot appends exactly 156 bytes per particle, so after k snapshots of an n-particle run the history file holds exactly k*n*156 bytes: the number of bytes that a resume expects from a recovery snapshot with counter k.", "quantifier": "all particle lists, all field bit patterns, all numbers of snapshots", "why_tests_cant": "The expected size is computed from a hand-written formula in one function and the bytes are produced by two serializer calls in another; agreement is needed for every state, and a disagreement silently truncates or rejects a history.", "anchors": ["src/integrator/output.rs: write_historic_snapshot, n_bytes_per_particle_in_historic_snapshot", "src/main.rs: main (expected_n_bytes)"]}
{"id": "C02", "title": "History reader inverts the history writer", "statement": "Reading a history file gives back, field by field and bit by bit, exactly the records that were written, in order, for every f64 bit pattern (NaN payloads, infinities, signed zeros included) and every particle id.", "quantifier": "all sequences of snapshots, all bit patterns", "why_tests_cant": "2^64 values per field and unbounded sequences; tests compare a few runs within tolerances.", "anchors": ["src/integrator/output.rs: write_historic_snapshot", "posidonius/analysis/history.py: read"]}
{"id": "C03", "title": "A history cut at any byte reads as whole snapshots", "statement": "If the history file of an n-particle run is cut at an arbitrary byte (interrupted run), but not inside its very first snapshot, the reader returns exactly the complete snapshots that precede the cut: no partial record and no partial snapshot survives.", "quantifier": "all histories, all cut positions after the first snapshot", "why_tests_cant": "There are as many cut positions as bytes in the file, for every number of particles.", "anchors": ["posidonius/analysis/history.py: read", "src/integrator/output.rs: write_historic_snapshot"]}
{"id": "C04", "title": "Recovery snapshots do not influence the trajectory or the history", "statement": "The sequence of historic records and the trajectory produced by a simulation do not depend on when (or whether) recovery snapshots are written.", "quantifier": "all integrators' schedules, all recovery schedules, all step functions, arbitrary arithmetic", "why_tests_cant": "Needs every interleaving of recovery writes with iterations.", "anchors": ["src/integrator/leapfrog.rs: iterate, write_recovery_snapshot", "src/integrator/whfast.rs: iterate, write_recovery_snapshot", "src/integrator/ias15.rs: iterate, write_recovery_snapshot", "src/main.rs: main"]}
{"id": "C05", "title": "Resume after a crash reproduces the uninterrupted history", "statement": "If the process is killed at any moment, and resumed from the last completed recovery snapshot, any number of times, the history file that results at completion is byte for byte the one of an uninterrupted run.", "quantifier": "all crash points (between any two file operations, with any amount of buffered history lost), any number of crashes and resumes, all step functions", "why_tests_cant": "Crash points and their combinations cannot be enumerated by tests.", "anchors": ["src/main.rs: main", "src/integrator/output.rs: get_universe_history_writer, write_recovery_snapshot, restore_snapshot", "src/integrator/leapfrog.rs: write_recovery_snapshot"]}
{"id": "C06", "title": "A completed recovery snapshot can always be resumed", "statement": "Whenever a recovery snapshot has been completely written, the history file already holds at least the bytes that the snapshot's counter promises, so resuming from it never fails with 'Historic snapshots do not contain all the expected history', whatever happens to buffered data afterwards.", "quantifier": "all executions and crash points", "why_tests_cant": "Depends on the order of flush and snapshot write in every execution.", "anchors": ["src/integrator/leapfrog.rs: write_recovery_snapshot", "src/integrator/output.rs: get_universe_history_writer"]}
{"id": "C07", "title": "There is always a usable recovery snapshot once one was written", "statement": "Once a first recovery snapshot has been completed, at every later crash point the recovery file path holds a complete snapshot.", "quantifier": "all crash points", "why_tests_cant": "Needs a crash between two file-system calls.", "anchors": ["src/integrator/output.rs: write_recovery_snapshot"]}
{"id": "C08", "title": "First record and record order", "statement": "The first iteration of a fresh simulation writes the initial state (time 0) to the history; afterwards at most one record is written per iteration and record times are strictly increasing.", "quantifier": "all runs, all positive periods and time steps", "why_tests_cant": "Unbounded runs and arbitrary periods.", "anchors": ["src/integrator/leapfrog.rs: iterate", "src/integrator/whfast.rs: iterate", "src/integrator/ias15.rs: iterate"]}
{"id": "C09", "title": "Fixed-step schedule: k-th record at the k-th multiple of the period", "statement": "For the fixed-step integrators, with 0 < time step <= historic period, record number k (k = 0, 1, ...) is taken at the first step time that is at or after k*period: no record is skipped and the schedule does not drift, however long the run is.", "quantifier": "all step sizes, periods, numbers of steps (exact arithmetic)", "why_tests_cant": "Drift shows up only after unboundedly many steps.", "anchors": ["src/integrator/leapfrog.rs: iterate", "src/integrator/whfast.rs: iterate"]}
{"id": "C10", "title": "Adaptive-step schedule: records are at least one period apart", "statement": "For the adaptive integrator, whatever sequence of step sizes it chooses, two consecutive records are at least one historic period apart, and a record is written at the first iteration that begins at least one period after the previous record.", "quantifier": "all sequences of step sizes", "why_tests_cant": "Step sizes are data dependent.", "anchors": ["src/integrator/ias15.rs: iterate"]}
{"id": "C11", "title": "A fixed-step run ends, and does not pass the time limit", "statement": "With a constant time step dt > 0, a run with time limit T ends after exactly max(1, floor(T/dt)) iterations; its final time is at most T whenever T >= dt.", "quantifier": "all dt > 0, all T (exact arithmetic); for arbitrary arithmetic the final time never exceeds T unless a single iteration already does", "why_tests_cant": "Needs arbitrary limits and step sizes, and the end condition is evaluated after the step.", "anchors": ["src/integrator/leapfrog.rs: iterate", "src/integrator/whfast.rs: iterate"]}
{"id": "C12", "title": "The final state is available to the user", "statement": "When a simulation completes, the state at the final time has been saved in the history or in the recovery snapshot.", "quantifier": "all runs", "why_tests_cant": "A negative answer requires looking at all outputs of a run; existing tests never complete a run through main.", "anchors": ["src/main.rs: main", "src/integrator/leapfrog.rs: iterate"]}
{"id": "C13", "title": "Changing the time limit on resume is validated", "statement": "A new time limit is ignored when it is not positive; otherwise it takes effect exactly, unless it is increased beyond the tabulated age of an evolving body or decreased below the current time, in which cases the program refuses it. After a successful change, no evolving body can be asked for an age outside its table before the limit.", "quantifier": "all states, all requested limits, any sequence of changes", "why_tests_cant": "Branching over all combinations of old limit, new limit, current time and tables.", "anchors": ["src/integrator/leapfrog.rs: set_time_limit", "src/integrator/whfast.rs: set_time_limit", "src/integrator/ias15.rs: set_time_limit"]}
{"id": "C14", "title": "Changing snapshot periods on resume", "statement": "A requested period replaces the current one if and only if it is positive; the other period, counters and state are untouched.", "quantifier": "all states and requested values (arbitrary arithmetic, NaN included)", "why_tests_cant": "All float values.", "anchors": ["src/integrator/leapfrog.rs: set_snapshot_periods"]}
{"id": "C15", "title": "Command line option --time-limit works", "statement": "Supplying --time-limit to 'resume' changes the simulation time limit.", "quantifier": "all command lines", "why_tests_cant": "No test drives the command line.", "anchors": ["src/main.rs: main (change_time_limit)"]}
{"id": "C16", "title": "An execution limit does not disable periodic recovery snapshots", "statement": "Recovery snapshots are written at the requested period whether or not an execution time limit is given.", "quantifier": "all runs with an execution limit", "why_tests_cant": "Wall-clock dependent.", "anchors": ["src/main.rs: main"]}
{"id": "C17", "title": "A start never overwrites an existing simulation", "statement": "'start' refuses to run if the recovery or the history file already exists, and in that case leaves both files unchanged; 'resume' never extends a history that is shorter than its snapshot promises.", "quantifier": "all file-system states and command lines", "why_tests_cant": "All combinations of existing files and contents.", "anchors": ["src/main.rs: main", "src/integrator/output.rs: get_universe_history_writer"]}
{"id": "C18", "title": "A JSON snapshot is restored as the integrator that wrote it", "statement": "A JSON snapshot written by the WHFast, IAS15 or LeapFrog integrator is restored as that same integrator, whatever the field values.", "quantifier": "all integrator states", "why_tests_cant": "The restore code guesses the type by trial; all contents matter.", "anchors": ["src/integrator/output.rs: deserialize_json_snapshot"]}
{"id": "C19", "title": "Newtonian gravity obeys action and reaction", "statement": "The gravitational accelerations of a system satisfy sum(m_i a_i) = 0 and sum(m_i r_i x a_i) = 0.", "quantifier": "all numbers of particles, masses and positions (exact arithmetic)", "why_tests_cant": "Holds for all configurations or not at all.", "anchors": ["src/particles/universe.rs: gravity_calculate_acceleration"]}
{"id": "C20", "title": "Gravity depends on relative positions only and rotates with the system", "statement": "Translating all bodies leaves gravitational accelerations unchanged; rotating or reflecting all bodies rotates or reflects the accelerations.", "quantifier": "all particle sets, all translations and orthogonal maps", "why_tests_cant": "Continuum of transformations.", "anchors": ["src/particles/universe.rs: gravity_calculate_acceleration"]}
{"id": "C21", "title": "Leapfrog conserves linear and angular momentum", "statement": "Over any number of leapfrog steps of a purely gravitational system, total linear momentum and total angular momentum are exactly conserved and the centre of mass moves uniformly.", "quantifier": "all systems, step sizes, numbers of steps (exact arithmetic)", "why_tests_cant": "Tests only see finite runs within tolerances.", "anchors": ["src/integrator/leapfrog.rs: iterate, integrator_part1, integrator_part2"]}
{"id": "C22", "title": "Leapfrog is time reversible", "statement": "Advancing n steps, reversing all velocities, and advancing n steps again returns every body to its initial position with reversed velocity.", "quantifier": "all systems, step sizes, n (exact arithmetic)", "why_tests_cant": "All n.", "anchors": ["src/integrator/leapfrog.rs: integrator_part1, integrator_part2"]}
{"id": "C23", "title": "Canonical coordinate transformations are inverse to each other", "statement": "For Jacobi, democratic heliocentric and WHDS coordinates, transforming to alternative coordinates and back returns every position and velocity.", "quantifier": "all numbers of bodies with positive masses, all positions and velocities (exact arithmetic)", "why_tests_cant": "All dimensions and masses.", "anchors": ["src/integrator/whfast.rs: inertial_to_jacobi_posvel, jacobi_to_inertial_posvel, inertial_to_whds_and_democratic_heliocentric_posvel, whds_to_inertial_vel, democratic_heliocentric_to_inertial_vel"]}
{"id": "C24", "title": "Kepler step keeps the two-body invariants", "statement": "A Kepler step with a solved universal anomaly maps (r, v) to (r', v') such that r' x v' = r x v, and its result is the exact two-body solution relation for the G functions; a zero time step is the identity.", "quantifier": "all initial conditions, step sizes and masses (exact arithmetic, given the solver's equation)", "why_tests_cant": "Continuum of states.", "anchors": ["src/integrator/whfast.rs: kepler_individual_step, stumpff_cs3, stiefel_gs3"]}
{"id": "C25", "title": "Interaction and jump steps conserve momentum", "statement": "Interaction (kick) steps and jump steps of WHFast conserve total linear momentum for every coordinate choice.", "quantifier": "all systems", "why_tests_cant": "All systems.", "anchors": ["src/integrator/whfast.rs: interaction_step, jump_step"]}
{"id": "C26", "title": "Linear interpolation stays within the table", "statement": "Interpolating a tabulated quantity at any target returns a value between the smallest and largest tabulated values, equals the table at its nodes, is constant outside the range of the table and is exact for linear data.", "quantifier": "all non-empty increasing tables, all targets", "why_tests_cant": "All tables and targets.", "anchors": ["src/tools.rs: linear_interpolation, find_indices_around_target_value"]}
{"id": "C27", "title": "Interpolation never reads out of bounds", "statement": "For every non-empty table (sorted or not, NaN included) the pair of indices used for the interpolation is inside the table and adjacent.", "quantifier": "all tables, all targets, arbitrary comparison outcomes", "why_tests_cant": "All tables including malformed ones.", "anchors": ["src/tools.rs: find_indices_around_target_value"]}
{"id": "C28", "title": "Stellar evolution lookups equal a full-table lookup", "statement": "When times are queried in non-decreasing order, the cached evolution lookups return exactly what a lookup in the complete table returns.", "quantifier": "all tables, all non-decreasing sequences of query times", "why_tests_cant": "The cached index depends on the complete query history.", "anchors": ["src/effects/evolution.rs: Evolver.radius, radius_of_gyration_2, love_number, inverse_tidal_q_factor, idx"]}
{"id": "C29", "title": "Evolution lookups tolerate small steps backwards in time", "statement": "The lookup still returns the full-table value when the queried time moves back by fewer than ten table samples.", "quantifier": "all tables and query sequences", "why_tests_cant": "Depends on the query history.", "anchors": ["src/effects/evolution.rs: Evolver.idx"]}
{"id": "C30", "title": "Evolving Love number takes effect", "statement": "For an evolution model that tabulates the Love number, the tidal Love number used by the simulation at time t is the tabulated one.", "quantifier": "all evolving bodies and times", "why_tests_cant": "The assignment compiles and runs without effect; only a check of every later use shows it.", "anchors": ["src/effects/evolution.rs: calculate_particles_non_spin_dependent_evolving_quantities"]}
{"id": "C31", "title": "Modulus and angle reduction", "statement": "The modulus helper returns a value in [0, b) congruent to a modulo b for every a and b > 0.", "quantifier": "all a, all b > 0 (exact arithmetic)", "why_tests_cant": "All values.", "anchors": ["src/tools.rs: modulus"]}
{"id": "C32", "title": "Kepler equation solvers return solutions", "statement": "The Kepler-equation solvers return an anomaly that satisfies Kepler's equation for the mean anomaly requested (elliptic, parabolic and hyperbolic case).", "quantifier": "all eccentricities and mean anomalies", "why_tests_cant": "Continuum of inputs; failing regions are easily missed by samples.", "anchors": ["src/tools.rs: kepler_solution_for_eccentrities_smaller_than_one, kepler_solution_for_a_parabola, kepler_solution_for_a_hyperbola"]}
{"id": "C33", "title": "Tidal forces obey action and reaction", "statement": "With constant-time-lag tides the mass-weighted tidal accelerations of the host and all its companions add up to zero.", "quantifier": "all systems with any number of companions", "why_tests_cant": "All systems.", "anchors": ["src/effects/tides/common.rs: calculate_tidal_acceleration"]}
{"id": "C34", "title": "Constant-time-lag tides conserve total angular momentum", "statement": "The rate of change of orbital plus rotational angular momentum caused by constant-time-lag tides is zero: what the orbit loses the spins gain.", "quantifier": "all systems, positions, velocities and spins (exact arithmetic)", "why_tests_cant": "Continuum of configurations.", "anchors": ["src/effects/tides/constant_time_lag.rs: calculate_torque_due_to_tides, calculate_tidal_force, calculate_orthogonal_component_of_the_tidal_force", "src/effects/tides/common.rs: calculate_dangular_momentum_dt_due_to_tides"]}
{"id": "C35", "title": "Tidal heating is never negative", "statement": "The rate of energy dissipated in a body by constant-time-lag tides, as written in the history, is never negative for non-negative dissipation factors, and vanishes for a circular, synchronous, aligned orbit.", "quantifier": "all orbits and spins (exact arithmetic)", "why_tests_cant": "Continuum of states.", "anchors": ["src/effects/tides/constant_time_lag.rs", "src/effects/tides/common.rs: calculate_denergy_dt"]}
{"id": "C36", "title": "Bodies without tides leave the host's rotation finite", "statement": "Adding a body whose tides are disabled to a system does not change the tidal torque on the host.", "quantifier": "all systems with a mix of enabled and disabled bodies", "why_tests_cant": "Mixed configurations produce 0/0.", "anchors": ["src/effects/tides/common.rs: calculate_dangular_momentum_dt_due_to_tides"]}
{"id": "C37", "title": "Pair dependent dissipation factors are looked up for the right pair", "statement": "The pair-dependent dissipation factor read for a (body, depends-on) pair is the last one stored for this pair if it was not removed since; different pairs never interfere.", "quantifier": "all sequences of set/remove/get operations, all ids below the maximum", "why_tests_cant": "All histories of operations.", "anchors": ["src/effects/tides/constant_time_lag.rs: set_pair_dependent_scaled_dissipation_factor, remove_pair_dependent_scaled_dissipation_factor, get_pair_dependent_scaled_dissipation_factor_or_else"]}
{"id": "C38", "title": "Rotational flattening: forces and torques balance", "statement": "For oblate-spheroid flattening the host's force is the opposite of the sum of the forces on its companions, and each body's flattening torque is balanced by the torque of the force on the orbit.", "quantifier": "all systems (exact arithmetic)", "why_tests_cant": "Continuum of states.", "anchors": ["src/effects/rotational_flattening/oblate_spheroid.rs", "src/effects/rotational_flattening/common.rs"]}
{"id": "C39", "title": "Non-rotating bodies do not poison flattening", "statement": "A body with zero spin contributes zero (finite) flattening force.", "quantifier": "all systems with a non-rotating body", "why_tests_cant": "Special values.", "anchors": ["src/effects/rotational_flattening/oblate_spheroid.rs"]}
{"id": "C40", "title": "Post-Newtonian corrections obey action and reaction", "statement": "Each part of the Kidder (1995) general-relativity correction (first order, second order, spin-orbit) leaves the total linear momentum unchanged, and the relativistic spin torque changes only the direction of a spin, not its magnitude.", "quantifier": "all systems (exact arithmetic)", "why_tests_cant": "Continuum of states.", "anchors": ["src/effects/general_relativity.rs: calculate_kidder1995_*"]}
{"id": "C41", "title": "Disk and wind interactions", "statement": "Disk forces obey action and reaction, vanish outside a disk's action (zero surface density inside the inner edge), and the wind torque is anti-parallel to the spin, never spins a body up, and is continuous at saturation.", "quantifier": "all states", "why_tests_cant": "Continuum of states.", "anchors": ["src/effects/disk.rs: calculate_disk_interaction_acceleration", "src/effects/wind.rs: calculate_wind_factor, calculate_dangular_momentum_dt_due_to_wind"]}
{"id": "C42", "title": "Universe construction normalises the frame", "statement": "After initialisation, the centre of mass of the system is at the origin and has zero velocity, relative positions and velocities are those supplied, and ids are the particle indices.", "quantifier": "all particle lists up to the maximum", "why_tests_cant": "All lists.", "anchors": ["src/particles/universe.rs: Universe::new, compute_center_of_mass_and_velocity"]}
{"id": "C43", "title": "Effects are enabled only with a host", "statement": "An effect stays enabled only if exactly one body plays the corresponding central role (and at least one other participates); two central bodies for an effect are rejected; the GR host, and the common host of tides and flattening, satisfy the documented constraints.", "quantifier": "all particle lists and requested effects", "why_tests_cant": "All combinations of roles.", "anchors": ["src/particles/universe.rs: find_indices, disable_unnecessary_effects"]}
{"id": "C44", "title": "Heliocentric coordinates are host centred", "statement": "After the inertial-to-heliocentric update, the host is at the origin at rest and every other body's heliocentric position and velocity are the inertial ones minus the host's; repeating the update changes nothing.", "quantifier": "all states", "why_tests_cant": "All states, including stale ones.", "anchors": ["src/particles/universe.rs: inertial_to_heliocentric"]}
{"id": "C45", "title": "Collision and ejection detection is complete", "statement": "If, at an acceleration evaluation, two bodies are closer than their Roche or contact distance, or a body is farther than the maximum distance from the most massive body, the program stops with the corresponding message.", "quantifier": "all systems and indices of the most massive body", "why_tests_cant": "Depends on the order of bodies.", "anchors": ["src/particles/universe.rs: gravity_calculate_acceleration"]}
{"id": "C46", "title": "Adaptive integrator: prediction for the next step is the exact continuation", "statement": "The coefficients predicted for the next step by the adaptive integrator describe the same acceleration polynomial as the previous step, shifted to the new origin and rescaled to the new step size.", "quantifier": "all coefficients and step ratios up to 20", "why_tests_cant": "Polynomial identity in 15 variables.", "anchors": ["src/integrator/ias15.rs: predict_next_step"]}
{"id": "C47", "title": "Adaptive integrator: position and velocity updates integrate the acceleration polynomial", "statement": "The position and velocity the adaptive integrator reaches at the end of a step (and the values predicted at its sub-steps) are the exact integrals of its acceleration polynomial.", "quantifier": "all coefficients and step sizes (exact arithmetic)", "why_tests_cant": "Polynomial identities.", "anchors": ["src/integrator/ias15.rs: integrator"]}
{"id": "C48", "title": "Adaptive integrator: step-size control", "statement": "A new step never exceeds four times the previous one, a step is rejected exactly when the estimated step is less than a quarter of the one tried, rejected steps leave bodies and time unchanged, and each predictor-corrector sequence uses between 1 and 12 evaluations sweeps.", "quantifier": "all states and error estimates, NaN included", "why_tests_cant": "All estimates.", "anchors": ["src/integrator/ias15.rs: integrator, sqrt7"]}
{"id": "C49", "title": "Iteration bounds of the implicit midpoint step", "statement": "The implicit midpoint scheme evaluates the velocity-dependent forces between 3 and 10 times, for every force (NaN included), and its result satisfies the midpoint equation when it stops by convergence of an exact fixed point.", "quantifier": "all forces", "why_tests_cant": "All forces.", "anchors": ["src/integrator/whfast.rs: integrate_velocity_dependent_forces, converged"]}
{"id": "C50", "title": "Compensated summation loses nothing in exact arithmetic and corrects the previous error", "statement": "The compensated additions used by the integrators add exactly the increment minus the stored compensation.", "quantifier": "all values", "why_tests_cant": "All values.", "anchors": ["src/integrator/ias15.rs: add_cs", "src/integrator/whfast.rs: integrate_velocity_dependent_forces"]}
{"id": "C51", "title": "Creep tide anomaly iteration ends", "statement": "The fixed-point iteration for the eccentric anomaly used by creep tides ends for every eccentricity in [0,1) and every mean anomaly, at a point close to the solution of Kepler's equation.", "quantifier": "all e in [0,1), all mean anomalies (exact arithmetic)", "why_tests_cant": "An unbounded loop without iteration limit.", "anchors": ["src/effects/tides/creep_coplanar.rs: calculate_true_anomaly"]}
{"id": "C52", "title": "Tidal Love number table lookup (Kaula)", "statement": "The frequency dependent Love number used by Kaula tides is the linear interpolation of the user's table, is clamped outside it, and is an odd (imaginary part) / even (real part) function of the frequency for planets.", "quantifier": "all sorted tables and frequencies", "why_tests_cant": "All tables.", "anchors": ["src/effects/tides/kaula.rs: calculate_kaula_numbers"]}
{"id": "C53", "title": "Kaula circular orbit is the limit of eccentric orbits", "statement": "For a planar orbit the Kaula tidal force at zero eccentricity equals the general expression evaluated at zero eccentricity.", "quantifier": "all Love number tables and orbital frequencies", "why_tests_cant": "Branches on a single floating point value.", "anchors": ["src/effects/tides/kaula.rs: calculate_radial_component_of_the_tidal_force, calculate_orthogonal_component_of_the_tidal_force"]}
{"id": "C54", "title": "Roche radii are symmetric and cover every pair", "statement": "The collision radius computed for a pair of bodies is the same whichever of the two is listed first, is positive for bodies with positive radius or mass, and is defined for every pair.", "quantifier": "all particle lists", "why_tests_cant": "All pairs.", "anchors": ["src/particles/universe.rs: calculate_roche_radiuses"]}
{"id": "C55", "title": "Recording the history is observation only", "statement": "Writing a historic record does not alter the trajectory: with the LeapFrog integrator, the state after an iteration that records equals the state after one that does not, except for the bookkeeping of snapshots.", "quantifier": "all states, arbitrary arithmetic", "why_tests_cant": "All states.", "anchors": ["src/integrator/leapfrog.rs: iterate"]}
{"id": "C56", "title": "Initial state lies on the requested orbit", "statement": "The position and velocity built from orbital elements (perihelion distance, eccentricity, inclination, perihelion, node, mean anomaly) lie on the conic with exactly these elements whatever the anomaly solver returned: energy, angular momentum vector and eccentricity vector are those of the elements; reading perihelion distance and eccentricity back returns them.", "quantifier": "all elements with positive perihelion distance, eccentricity >= 0 (exact arithmetic)", "why_tests_cant": "Continuous, eight-dimensional input space with three branches.", "anchors": ["src/tools.rs: calculate_cartesian_coordinates, calculate_perihelion_distance_and_eccentricity"]}
{"id": "C57", "title": "Orbital elements are recovered from the state", "statement": "For every elliptic orbit, the orbital elements computed from position and velocity are the elements of that orbit.", "quantifier": "all ellipses, all positions on them (exact arithmetic)", "why_tests_cant": "Continuous input space; quadrant and branch errors show only in parts of it.", "anchors": ["src/tools.rs: calculate_keplerian_orbital_elements"]}
{"id": "C58", "title": "Initial spin has the requested rate and obliquity", "statement": "The spin vector built from a rate, inclination, obliquity and node has that rate and makes the obliquity angle with the orbit; the angle between orbit and equator computed from the state is that obliquity.", "quantifier": "all rates, angles and orbits (exact arithmetic)", "why_tests_cant": "Continuous input space.", "anchors": ["src/tools.rs: calculate_spin, calculate_inclination_orbital_equatorial_plane"]}
{"id": "C59", "title": "Pseudo-synchronous rotation period", "statement": "The pseudo-synchronous rotation period is positive, never longer than the orbital period, and equal to it for a circular orbit.", "quantifier": "all semi-major axes, eccentricities in [0,1), masses (exact arithmetic)", "why_tests_cant": "Continuous input space.", "anchors": ["src/tools.rs: calculate_pseudo_synchronization_period"]}
{"id": "C60", "title": "Lag angle of evolving bodies", "statement": "The lag angle of a body with dynamical tides is 3/4 of the squared ratio of its spin to the Sun's dynamical frequency times the tabulated inverse quality factor at the current time; it is zero for every other body; nothing else of the body changes.", "quantifier": "all tables, all times not before the samples already passed, all bodies (exact arithmetic)", "why_tests_cant": "Unbounded tables and times.", "anchors": ["src/effects/evolution.rs: calculate_particles_spin_dependent_evolving_quantities"]}
{"id": "C61", "title": "Pair dependent factors end with the dynamical tide", "statement": "When a body of a pair leaves the regime of the dynamical tide (half the tidal frequency is not below its rotation rate) its dissipation factor for this pair is its equilibrium one again, and the factor of the other body of the pair is not touched.", "quantifier": "all pairs of bodies, all contents of the table", "why_tests_cant": "The regime is left only after long evolution of spin and orbit.", "anchors": ["src/effects/tides/constant_time_lag.rs: calculate_host_dependent_scaled_dissipation_factors"]}
{"id": "C62", "title": "An evaluation of the effects does not panic", "statement": "For a system whose hosts have been found, an evaluation of the additional effects panics exactly if a moment of inertia is zero.", "quantifier": "all systems with any combination of effects, for any arithmetic, without evolving bodies", "why_tests_cant": "Exponentially many combinations of effects and hosts.", "anchors": ["src/particles/universe.rs: calculate_additional_effects, initialize"]}
{"id": "C63", "title": "Flattening force is the gradient of the quadrupole potential", "statement": "The flattening force on a companion is the gradient of the sum of the quadrupole potentials of the two rotating bodies.", "quantifier": "all systems (exact arithmetic)", "why_tests_cant": "Continuum of states; wrong coefficients of one component leave balances of momentum intact.", "anchors": ["src/effects/rotational_flattening/oblate_spheroid.rs", "src/effects/rotational_flattening/common.rs"]}
{"id": "C64", "title": "Kidder's corrections are the published ones", "statement": "The relativistic acceleration of a companion is Kidder's post-Newtonian acceleration of first and second order with the spin-orbit term, and the torques on the spins are the published spin precession.", "quantifier": "all systems with a relativistic host (exact arithmetic)", "why_tests_cant": "Continuum of states; a wrong power of the speed of light or of the distance is invisible for one choice of units.", "anchors": ["src/effects/general_relativity.rs: calculate_kidder1995_first_order_general_relativity_acceleration, calculate_kidder1995_second_order_general_relativity_acceleration, calculate_kidder1995_spin_orbit_general_relativity_acceleration_and_dangular_momentum_dt"]}
{"id": "C65", "title": "Anderson's corrections obey action and reaction", "statement": "The relativistic accelerations by Anderson's equations in Jacobi coordinates, brought back to the inertial frame, leave the total momentum unchanged.", "quantifier": "all systems with any number of companions (exact arithmetic)", "why_tests_cant": "Any number of bodies; continuum of states.", "anchors": ["src/effects/general_relativity.rs: calculate_anderson1975_general_relativity_acceleration, anderson1975_general_relativity_inertial_to_jacobi_posvelacc, anderson1975_general_relativity_jacobi_to_inertial_acc"]}
{"id": "C66", "title": "Newhall's corrections solve the Einstein-Infeld-Hoffmann equations", "statement": "A sweep of the iteration evaluates the Einstein-Infeld-Hoffmann equations with the total accelerations of the sweep before, and the iteration ends with a solution of these equations.", "quantifier": "all systems with any number of bodies (exact arithmetic)", "why_tests_cant": "Any number of bodies; continuum of states; number of sweeps depends on data.", "anchors": ["src/effects/general_relativity.rs: calculate_newhall1983_general_relativity_acceleration"]}
{"id": "C67", "title": "Relativistic corrections start from the full Newtonian acceleration", "statement": "The Newtonian accelerations used by Anderson's and Newhall's corrections are the gravity of all bodies, also if the integrator leaves out terms between the host and its companions.", "quantifier": "all systems, all integrators (exact arithmetic)", "why_tests_cant": "Any number of bodies; continuum of states.", "anchors": ["src/effects/general_relativity.rs: get_anderson1975_newhall1983_newtonian_inertial_accelerations"]}
{"id": "C68", "title": "Reported energy and angular momentum are those of the system", "statement": "The total energy and total angular momentum computed from the particles are the kinetic plus potential energy and the orbital angular momentum of the system.", "quantifier": "all systems with any number of bodies (exact arithmetic)", "why_tests_cant": "Any number of bodies; continuum of states.", "anchors": ["src/particles/universe.rs: compute_total_energy, compute_total_angular_momentum"]}
{"id": "C69", "title": "Evolving bodies start in a consistent state", "statement": "After construction of the universe an evolving body has radius and radius of gyration of its table, keeps the supplied spin, and its moment of inertia and angular momentum belong to these.", "quantifier": "all lists of particles, all tables (exact arithmetic)", "why_tests_cant": "Unbounded tables, any number of bodies.", "anchors": ["src/particles/universe.rs: Universe::new"]}
{"id": "C70", "title": "A WHFast step conserves momentum and moves the centre of mass uniformly", "statement": "A whole WHFast step under gravity that obeys action and reaction keeps all masses and the total momentum, and moves the centre of mass by time step times its velocity, in all three coordinate systems.", "quantifier": "all systems with any number of planets, all time steps, whatever the Kepler solver returns (exact arithmetic)", "why_tests_cant": "Any number of bodies; continuum of states; long chain of transformations.", "anchors": ["src/integrator/whfast.rs: iterate, kepler_steps, jump_step, interaction_step"]}
{"id": "C71", "title": "Jump, kick and Kepler drift conserve angular momentum", "statement": "The total angular momentum of the bodies is the angular momentum of the centre of mass plus that of the alternative coordinates with their reduced masses; the jump and the Kepler motion conserve it and the kick changes it by the torque of the accelerations.", "quantifier": "all systems with any number of planets, all three coordinate systems (exact arithmetic)", "why_tests_cant": "Any number of bodies; continuum of states; conservation needs exactly matching factors in transformation, jump and kick.", "anchors": ["src/integrator/whfast.rs: jump_step, interaction_step, inertial_to_alternative_posvel, alternative_to_inertial_posvel"]}
{"id": "C72", "title": "The parts of the WHFast splitting add up to the equations of motion", "statement": "To first order in the time step, Kepler drift, jump and kick together move the alternative coordinates as Newton's equations for all bodies do: no interaction is missing or counted twice.", "quantifier": "all systems with any number of planets, all three coordinate systems (exact arithmetic)", "why_tests_cant": "Any number of bodies; a missing or doubled indirect term of the size of a planetary mass hides in tests with small masses.", "anchors": ["src/integrator/whfast.rs: kepler_steps, jump_step, interaction_step", "src/particles/universe.rs: gravity_calculate_acceleration"]}
{"id": "C73", "title": "Stumpff functions", "statement": "The argument reduction ends, the series and the quadrupling formulas compute the Stumpff functions c0 to c3, and the scaled values are the universal functions G0 to G3.", "quantifier": "all finite arguments (exact arithmetic); infinite and NaN arguments as control flow", "why_tests_cant": "Continuum of arguments, unbounded number of quadruplings.", "anchors": ["src/integrator/whfast.rs: stumpff_cs3, stiefel_gs3"]}
{"id": "C74", "title": "The Kepler solver ends", "statement": "The solver for the universal anomaly ends for every orbit and time step, falling back from Newton's method and the quartic solver to bisection.", "quantifier": "all orbits with angular momentum and all positive time steps (exact arithmetic), NaN coordinates as control flow", "why_tests_cant": "Unbounded loops over a continuum of orbits.", "anchors": ["src/integrator/whfast.rs: kepler_individual_step"]}
{"id": "C75", "title": "A whole WHFast iteration conserves momentum", "statement": "With additional forces that obey action and reaction, the implicit midpoint half steps and the WHFast step between them keep the total momentum and move the centre of mass uniformly, over any number of iterations.", "quantifier": "all systems with any number of planets, all balanced forces, any number of iterations and midpoint sweeps (exact arithmetic)", "why_tests_cant": "Any number of bodies and iterations; arbitrary forces.", "anchors": ["src/integrator/whfast.rs: iterate, integrate_velocity_dependent_forces"]}
{"id": "C76", "title": "IAS15's polynomial interpolates the accelerations and the step is a collocation step", "statement": "After each substep the polynomial of the step passes through the accelerations evaluated at the start and at all nodes visited so far; a step whose sweeps no longer change anything is the collocation method at the eight nodes; the constants of the code belong to its nodes.", "quantifier": "all systems with any number of bodies, all forces, all steps (exact arithmetic; the literals of the code up to 5e-26)", "why_tests_cant": "Any number of bodies, arbitrary forces; a wrong digit in one of the 42 constants lowers the order only slightly.", "anchors": ["src/integrator/ias15.rs: H, R, C, D tables, substeps"]}
{"id": "C77", "title": "IAS15 conserves momentum and moves the centre of mass uniformly", "statement": "With forces that obey action and reaction, any number of IAS15 iterations keep the total momentum and move the centre of mass by the elapsed time times its velocity.", "quantifier": "all systems with any number of bodies, all balanced forces, any number of iterations, sweeps and rejected steps (exact arithmetic)", "why_tests_cant": "Any number of bodies and iterations; arbitrary forces; unbounded number of rejections.", "anchors": ["src/integrator/ias15.rs: iterate, integrate_steps"]}
{"id": "C78", "title": "IAS15's nodes are Gauss-Radau nodes and the step has order fifteen", "statement": "The nodes of the code annihilate the moments of the nodal polynomial, so that with forces which are polynomials in time velocities are exact through degree 14 and positions through degree 13.", "quantifier": "all polynomial accelerations, all steps (exact arithmetic; the literals of the code up to 5e-30)", "why_tests_cant": "The order is a statement about all polynomials; wrong late digits of a node are invisible in short runs.", "anchors": ["src/integrator/ias15.rs: H table, finish of the step"]}
{"id": "C79", "title": "The step size control of IAS15", "statement": "The wanted step is dt times the seventh root of tolerance over error; the error is the largest last coefficient relative to the largest acceleration.", "quantifier": "all positive errors (exact arithmetic)", "why_tests_cant": "Continuum of errors; an iteration with a fixed number of rounds converges only in part of the range.", "anchors": ["src/integrator/ias15.rs: sqrt7, error estimate"]}
{"id": "C80", "title": "Cayley coefficients of the creep model", "statement": "The two tables of fifteen polynomials in the eccentricity are the Fourier coefficients of (a/r)^3 and (a/r)^3 exp(2iv) through order seven.", "quantifier": "all eccentricities up to 1/2, all anomalies (exact arithmetic)", "why_tests_cant": "A wrong sign in a high order coefficient changes results only slightly and for eccentric orbits only.", "anchors": ["src/effects/tides/creep_coplanar.rs: calculate_cayley_coefficients"]}
{"id": "C81", "title": "The shape of the creep model solves the creep equation", "statement": "Seen from the rotating body, equatorial prolateness and polar oblateness creep towards the equilibrium of the tidal potential at the relaxation rate; near synchronous rotation this holds for the librating body to first order in the eccentricity.", "quantifier": "all orbits, spins, viscosities and masses (exact arithmetic)", "why_tests_cant": "A differential equation for all times and all parameters.", "anchors": ["src/effects/tides/creep_coplanar.rs: calculate_particle_shape"]}
{"id": "C82", "title": "Force and torque of the creep model", "statement": "The force is minus the gradient of the potential energy in the field of the deformed body, and the torque on the body is balanced by the moment of the force; the flattening part causes no torque.", "quantifier": "all shapes, masses and planar positions (exact arithmetic)", "why_tests_cant": "Conservation of angular momentum for a continuum of states.", "anchors": ["src/effects/tides/creep_coplanar.rs: calculate_tidal_force, calculate_torque_due_to_tides", "src/effects/rotational_flattening/creep_coplanar.rs"]}
{"id": "C83", "title": "Eccentricity functions of the Kaula model", "statement": "The tables G_20q, G_21q, G_30q and G_31q are the Fourier coefficients of (r/a)^-(l+1) exp(i(l-2p)v) through order seven, and the rows for the remaining p follow by reflection.", "quantifier": "all eccentricities up to 1/8 and all anomalies (exact arithmetic)", "why_tests_cant": "A wrong coefficient of a high order changes the results slightly, for eccentric orbits only.", "anchors": ["src/effects/tides/kaula.rs: calculate_eccentricity_function_g_2pq, calculate_eccentricity_function_g_3pq"]}
{"id": "C84", "title": "Inclination functions of the Kaula model", "statement": "The functions F_2mp and F_3mp are those of Kaula: P_lm(sin phi) exp(i m lambda) on the inclined orbit is the sum of F_lmp exp(i(l-2p)u), times -i for odd l-m.", "quantifier": "all inclinations and all places on the orbit (exact arithmetic)", "why_tests_cant": "A continuum of inclinations; most of the wrong functions agree with the right ones at some special inclination.", "anchors": ["src/effects/tides/kaula.rs: calculate_inclination_function_f_20p .. f_33p"]}
{"id": "C85", "title": "An elastic body in the Kaula model", "statement": "The tide raised in a body without dissipation exerts no force along a planar orbit and pulls the bodies together.", "quantifier": "all positive Love numbers, masses, radii, eccentricities, anomalies, obliquities (exact arithmetic)", "why_tests_cant": "A sign for a continuum of states.", "anchors": ["src/effects/tides/kaula.rs: calculate_radial_component_of_the_tidal_force, calculate_orthogonal_component_of_the_tidal_force"]}
{"id": "C86", "title": "Masses and radii in the Kaula model", "statement": "The force of the tide raised in a body is proportional to the square of the mass of the body that raises it and to the fifth power of the radius of the deformed body.", "quantifier": "all particles, both roles of the deformed body (exact arithmetic)", "why_tests_cant": "The stellar tide swaps the arguments; a wrong mass only scales the result.", "anchors": ["src/effects/tides/kaula.rs: calculate_*_component_of_the_tidal_force"]}
{"id": "C87", "title": "Components, torque and exchange of angular momentum in the Kaula model", "statement": "The three components form the force in an orthonormal frame, and the torque on a body is minus the moment of the forces of its own tide, summed over all companions.", "quantifier": "all positions off the axis, all numbers of companions (exact arithmetic)", "why_tests_cant": "Conservation of angular momentum for a continuum of states.", "anchors": ["src/effects/tides/kaula.rs: calculate_tidal_force_component, calculate_torque_due_to_tides", "src/effects/tides/common.rs: calculate_tidal_acceleration, calculate_dangular_momentum_dt_due_to_tides"]}
{"id": "C88", "title": "An accepted evolution table covers the whole run", "statement": "If the tables of an evolving body are accepted, each column has one entry per time, and at any non-decreasing sequence of times between zero and the time limit every lookup succeeds and interpolates between two neighbouring records around the time asked for, never outside the table.", "quantifier": "all file contents (times in any order), models, masses, initial times, limits, and all sequences of lookups (lengths: any arithmetic; values: exact arithmetic)", "why_tests_cant": "Arbitrary files and arbitrary sequences of lookups; an empty file is accepted and panics only later.", "anchors": ["src/effects/evolution.rs: Evolver::new", "src/tools.rs: linear_interpolation"]}
{"id": "C89", "title": "The evolution table of the right mass is chosen", "statement": "A mass is accepted exactly if it is within the tolerance of a tabulated mass, the file read is the one of that mass, and the auxiliary column of a brown dwarf belongs to the same mass.", "quantifier": "all real masses and all six families of tables (exact arithmetic)", "why_tests_cant": "A continuum of masses at the edges of more than sixty windows.", "anchors": ["src/effects/evolution.rs: Evolver::new"]}
{"id": "C90", "title": "Evolution tables contain the records of the file, counted from the initial time", "statement": "The table has one entry per record after the headers, with age minus initial time in days and values in simulation units; lookups depend only on initial time plus simulation time.", "quantifier": "all file contents, models, initial times (exact arithmetic)", "why_tests_cant": "Arbitrary files; a unit or offset error of one model is not seen by runs with another.", "anchors": ["src/effects/evolution.rs: Evolver::new"]}
{"id": "C91", "title": "Unreadable evolution records are rejected", "statement": "A record with a field that is not a number where a number is needed makes loading fail; only the first line may be column headers.", "quantifier": "all file contents and models", "why_tests_cant": "Arbitrary malformed files.", "anchors": ["src/effects/evolution.rs: Evolver::new"]}
{"id": "C92", "title": "Force of the constant time lag model", "statement": "An evaluation gives every companion the acceleration of the two tides of the pair, each the force of weak friction: the gradient of the quadrupole energy and its change over the time lag; the definition determines the published formula.", "quantifier": "all positions, velocities, spins, radii, masses, Love numbers and dissipation factors of any number of companions without dynamical tide (exact arithmetic)", "why_tests_cant": "A wrong sign or a missing part of a small force in a continuum of states.", "anchors": ["src/effects/tides/constant_time_lag.rs: calculate_radial_component_of_the_tidal_force, calculate_tidal_force", "src/effects/tides/common.rs: calculate_tidal_acceleration"]}
{"id": "C93", "title": "Dissipation by the dynamical tide", "statement": "For a body with dynamical tide the dissipation of a pair is the frequency dependent one if the tidal frequency is below the spin rate and the equilibrium one otherwise, with the mean motion of the companion's Keplerian orbit.", "quantifier": "all bound companions, spins, lag angles and evolution models; earlier factors in the table are arbitrary (exact arithmetic)", "why_tests_cant": "The table of factors survives from earlier evaluations; a wrong key or exponent only scales a small force.", "anchors": ["src/effects/tides/constant_time_lag.rs: calculate_pair_dependent_scaled_dissipation_factors, calculate_planet_dependent_scaled_dissipation_factors"]}
{"id": "C94", "title": "Additional accelerations and torques are the sums over the effects switched on", "statement": "After an evaluation the additional acceleration of every body is the sum of the accelerations of the effects that are switched on, and the torque on its spin the sum of their torques; a switched off effect contributes nothing, whatever earlier evaluations left behind.", "quantifier": "all universes, all combinations of the switches, all sequences of evaluations (exact arithmetic)", "why_tests_cant": "Sixty-four combinations of switches times leftovers of earlier evaluations.", "anchors": ["src/particles/universe.rs: calculate_additional_effects"]}
{"id": "C95", "title": "The relativistic torque acts during the whole step", "statement": "Every torque used to advance the spins contains the relativistic one if relativity by Kidder is switched on.", "quantifier": "all universes with relativity by Kidder, all time steps (exact arithmetic)", "why_tests_cant": "A precession at half the rate is invisible without an independent computation of the rate.", "anchors": ["src/integrator/leapfrog.rs: iterate", "src/particles/universe.rs: calculate_additional_effects"]}
{"id": "C96", "title": "A step of LeapFrog with all effects", "statement": "A step is the midpoint rule for the attraction of all other bodies plus the effects switched on, the spins follow their torques, the total momentum of a closed system is conserved over any number of steps, and no step changes masses or the configuration of the effects.", "quantifier": "all universes, combinations of effects, time steps and numbers of steps (exact arithmetic)", "why_tests_cant": "Conservation over arbitrarily many steps and all combinations of effects.", "anchors": ["src/integrator/leapfrog.rs: iterate, integrator_part1, integrator_part2", "src/particles/universe.rs: calculate_additional_effects"]}
{"id": "C97", "title": "An iteration of IAS15 with all effects", "statement": "An evaluation gives the attraction of all other bodies plus the effects switched on and the sum of their torques at the given places; in any number of iterations a closed system keeps its total momentum and its centre of mass moves uniformly; masses and the configuration of the effects never change.", "quantifier": "all universes, combinations of effects, time steps, sweeps, rejected steps, records and numbers of iterations (momentum in exact arithmetic, configuration in any arithmetic)", "why_tests_cant": "Conservation over arbitrarily many iterations, rejected steps and all combinations of effects.", "anchors": ["src/integrator/ias15.rs: iterate, integrator", "src/particles/universe.rs: calculate_additional_effects"]}
{"id": "C98", "title": "An iteration of WHFast with all effects", "statement": "The half steps with velocity dependent forces leave positions alone and change velocities and spins by the time times the sum of the effects switched on; in any number of iterations a closed system keeps its total momentum and its centre of mass moves uniformly; masses and the configuration of the effects never change.", "quantifier": "all universes, combinations of effects, the three kinds of coordinates, time steps, records and numbers of iterations (momentum in exact arithmetic, configuration in any arithmetic)", "why_tests_cant": "Conservation over arbitrarily many iterations, three coordinate systems and all combinations of effects.", "anchors": ["src/integrator/whfast.rs: iterate, integrate_velocity_dependent_forces", "src/particles/universe.rs: calculate_additional_effects"]}
{"id": "C99", "title": "The stellar wind brakes its star", "statement": "A body with wind loses angular momentum at the rate of its wind, whatever the integrator.", "quantifier": "all universes with winds, all integrators, time steps and numbers of steps", "why_tests_cant": "It depends on the combination of effects: runs with wind are usually made together with tides or evolution.", "anchors": ["src/integrator/ias15.rs: integrator", "src/integrator/whfast.rs: iterate", "src/integrator/leapfrog.rs: iterate", "src/effects/wind.rs: calculate_wind_factor"]}
{"id": "C100", "title": "The setters of a particle", "statement": "The last call of each setter counts and no setter disturbs what another has set; if each is called at most once the order of the calls is irrelevant, for the particle and for the panic; tides and flattening by the creep model are only accepted together and with one viscosity.", "quantifier": "all particles and all sequences of calls of the setters (any arithmetic, the viscosity in exact arithmetic)", "why_tests_cant": "Unboundedly many orders of calls.", "anchors": ["src/particles/particle.rs: new, set_tides, set_rotational_flattening, check_uniform_viscosity_coefficient"]}
{"id": "C101", "title": "From the particles of the user to any time", "statement": "If all bodies take part in the effects that some body hosts, then from the construction of the universe through any number of iterations of any of the three integrators the centre of mass rests at the origin.", "quantifier": "all numbers of bodies, particles, combinations of constant time lag tides, oblate flattening, relativity by Kidder, wind and evolution, numbers of iterations of LeapFrog, IAS15 and WHFast (exact arithmetic)", "why_tests_cant": "Composition of construction, evaluation and integration for arbitrarily many steps.", "anchors": ["src/particles/universe.rs: new", "src/integrator/leapfrog.rs: iterate", "src/integrator/ias15.rs: iterate", "src/integrator/whfast.rs: iterate"]}
{"id": "C102", "title": "The choice of the axes", "statement": "Described with axes turned by any rotation, by an observer at any place and in uniform motion, the evaluation of the effects and any number of iterations of LeapFrog give the description of the same universe by that observer.", "quantifier": "all universes and rotations of the axes, all combinations of effects, numbers of steps (exact arithmetic)", "why_tests_cant": "A continuum of orientations; the examples of the project share one orientation.", "anchors": ["src/particles/universe.rs: calculate_additional_effects, gravity_calculate_acceleration", "src/integrator/leapfrog.rs: iterate", "src/effects/general_relativity.rs: calculate_kidder1995_spin_orbit_coupling_acceleration_and_spin"]}
{"id": "C103", "title": "The choice of the origin and its motion", "statement": "If all positions are shifted by one vector and all velocities by another (the latter not with the post-Newtonian equations of Newhall), the evaluation of the effects is the same, and any number of iterations of LeapFrog gives the same universe, shifted by the vector and the distance the origin has moved.", "quantifier": "all universes with positive masses, shifts, combinations of effects with any creep and Kaula tides that read no inertial coordinates, time steps and numbers of steps (exact arithmetic)", "why_tests_cant": "A continuum of origins and unboundedly many steps.", "anchors": ["src/particles/universe.rs: calculate_additional_effects, gravity_calculate_acceleration, inertial_to_heliocentric", "src/integrator/leapfrog.rs: iterate"]}
{"id": "C104", "title": "The order in which the bodies are listed", "statement": "If the bodies are listed in another order, the universe that is constructed, the effects that are evaluated and the states after any number of iterations of LeapFrog are the same, body by body.", "quantifier": "all numbers and permutations of the bodies, all combinations of effects, time steps, records and numbers of iterations (exact arithmetic)", "why_tests_cant": "Factorially many orders; a test fixes one of them.", "anchors": ["src/particles/universe.rs: new, calculate_additional_effects, gravity_calculate_acceleration", "src/effects/general_relativity.rs: calculate_anderson1975_general_relativity_acceleration, calculate_newhall1983_general_relativity_acceleration", "src/integrator/leapfrog.rs: iterate"]}
{"id": "C105", "title": "The energy that tides take out of orbits and rotations", "statement": "The power of the tidal forces and torques is the loss of the energy stored in the tides minus the heat released in the bodies; the heat in a companion is the one the code reports; the energy of orbits, rotations and tides never grows, and it is constant only if every companion rests in the rotating frame of each body in which tides dissipate.", "quantifier": "all universes in which every body has constant time lag tides, all masses, radii, Love numbers, dissipation factors, spins, positions and velocities (spins up to date, no evolution, no dynamical tide; exact arithmetic)", "why_tests_cant": "An identity between forces, torques, recoil of the host and a reported quantity over a continuum of states; rounding and short runs hide a wrong factor.", "anchors": ["src/effects/tides/common.rs: calculate_denergy_dt, calculate_tidal_acceleration, calculate_dangular_momentum_dt_due_to_tides", "src/effects/tides/constant_time_lag.rs: calculate_torque_due_to_tides, calculate_orthogonal_component_of_the_tidal_force, calculate_radial_component_of_the_tidal_force, calculate_tidal_force"]}
{"id": "C106", "title": "Rotational flattening keeps the energy", "statement": "The torques by rotational flattening turn the rotation vectors without changing the rates of rotation, and the power of the forces is the loss of the energy of the bodies in the quadrupole fields of the rotating bodies, the precession of the rotation vectors included.", "quantifier": "all universes in which every body is an oblate spheroid that rotates, all masses, radii, Love numbers, moments of inertia, spins, positions and velocities (spins up to date, no evolution; exact arithmetic)", "why_tests_cant": "The torque of all companions on the host enters the energy of every one of them; the identity holds only for the sum.", "anchors": ["src/effects/rotational_flattening/oblate_spheroid.rs: calculate_torque_induced_by_rotational_flattening, calculate_orthogonal_component_of_the_force_induced_by_rotational_flattening, calculate_radial_component_of_the_force_induced_by_rotational_flattening, calculate_acceleration_induced_by_rotational_flattering"]}
{"id": "C107", "title": "The choice of the units", "statement": "In any other units of length, time and mass, with the constants of nature and the parameters of the bodies converted according to their dimensions, the evaluation of the effects gives the converted result, and two runs of LeapFrog with any number of iterations end in the same state, converted.", "quantifier": "all systems of units, universes, combinations of effects, tables of evolving bodies, time steps, records and numbers of iterations (exact arithmetic)", "why_tests_cant": "The constants of the code are compiled in for one system of units, so a test cannot change it; a term of a wrong dimension is only a small number.", "anchors": ["src/particles/universe.rs: calculate_additional_effects, gravity_calculate_acceleration", "src/effects/general_relativity.rs: calculate_kidder1995_second_order_general_relativity_acceleration, calculate_kidder1995_spin_orbit_coupling_acceleration_and_spin", "src/integrator/leapfrog.rs: iterate", "src/constants.rs: MAX_DISTANCE_2"]}
{"id": "C108", "title": "What the solver of Kepler's equation finds", "statement": "Whichever way the solver ends (Newton's method, the quartic or bisection), it returns the functions and the inverse distance of one anomaly, and the solution of Kepler's equation is that anomaly, or differs from it by less than 2e-15 of its value, or, for bound orbits only, lies among the points of a cycle of the iteration to which the anomaly belongs; the step then gives the velocity of the exact motion at the time of that anomaly, and its position plus the initial velocity times the missing time.", "quantifier": "all positions and velocities that are not parallel, masses, positive time steps, bound, parabolic and hyperbolic orbits (exact arithmetic, exact Stumpff functions)", "why_tests_cant": "The fallbacks run for rare orbits only; that the bracket contains the solution is a statement about all orbits.", "anchors": ["src/integrator/whfast.rs: kepler_individual_step"]}
{"id": "C109", "title": "WHFast with two bodies", "statement": "Two bodies without other forces: any number of iterations of WHFast in Jacobi coordinates or those of WHDS changes their relative motion only by Kepler steps, two per iteration over half the time, for the sum of both masses, and moves the centre of mass uniformly; kick, jump and the half steps for the other forces do nothing.", "quantifier": "all universes of two bodies with positive masses, either of them the host, time steps, numbers of iterations, with or without records (exact arithmetic, whatever the solver of Kepler's equation yields)", "why_tests_cant": "Unboundedly many iterations from a continuum of states; a small kick that remains would look like rounding.", "anchors": ["src/integrator/whfast.rs: iterate, interaction_step, jump_step, kepler_steps", "src/particles/universe.rs: gravity_calculate_acceleration"]}
{"id": "C110", "title": "LeapFrog is symplectic", "statement": "Under gravity alone, any number of iterations of LeapFrog keeps the symplectic form: the derivatives of the final state along two families of initial states through the same state have the same form sum m_i (x_i.v'_i - x'_i.v_i) as the derivatives of the initial states.", "quantifier": "all numbers of bodies, masses, time steps, numbers of iterations, families of states (exact arithmetic)", "why_tests_cant": "A statement about derivatives in all directions at all states; a scheme that is not symplectic has nearly the same trajectories over the length of a test.", "anchors": ["src/integrator/leapfrog.rs: iterate, integrator_part1, integrator_part2", "src/particles/universe.rs: gravity_calculate_acceleration"]}
{"id": "C111", "title": "LeapFrog converges with the second order", "statement": "Let the bodies move along a solution of Newton's equations that stays clear of the checks which stop the program. LeapFrog, started at the same place without other forces, then goes through any number of steps within that time if the steps are short enough, and the errors of all positions and velocities are at most a constant times the square of the step.", "quantifier": "all numbers of bodies, masses, solutions on an interval of any length, steps below a bound that depends on the solution, with or without records (exact arithmetic)", "why_tests_cant": "A limit of ever shorter steps; a scheme of first order passes tests at one step length.", "anchors": ["src/integrator/leapfrog.rs: iterate, integrator_part1, integrator_part2", "src/particles/universe.rs: gravity_calculate_acceleration"]}
{"id": "C112", "title": "What Anderson's relativity computes", "statement": "With Anderson's corrections, the relativistic acceleration of each companion, relative to the mean of the host and the companions before it, is the correction for its position, velocity and Newtonian acceleration relative to the same means. In a weak field this correction is the one of a body that follows the relativistic Hamiltonian, with a momentum that belongs to its velocity up to the tolerance of the iteration; the Hamiltonian is conserved. To the first order in 1/c^2 it is the post-Newtonian acceleration in Schwarzschild's metric for a test body.", "quantifier": "all numbers of bodies, masses, positions, velocities, accelerations and tolerances (exact arithmetic, integrators that leave no term of gravity out)", "why_tests_cant": "The corrections are eight orders of magnitude smaller than the forces, so tests compare them with earlier output of the program only.", "anchors": ["src/effects/general_relativity.rs: calculate_anderson1975_general_relativity_acceleration, anderson1975_general_relativity_inertial_to_jacobi_posvelacc, anderson1975_general_relativity_jacobi_to_inertial_acc"]}
{"id": "C113", "title": "The rotation in equilibrium with the tides", "statement": "A companion that runs around the tidal host on a Kepler ellipse and rotates around the normal of the orbit gains in a revolution, by the tidal torques of constant time lag that the program evaluates along the orbit, a spin proportional to the difference between the rate of the period from calculate_pseudo_synchronization_period and its own rate, with a positive factor that is given. So the spin is in equilibrium exactly at that period; a faster body is slowed down and a slower one sped up.", "quantifier": "all semi-major axes, eccentricities below one, masses, radii, dissipation factors, orientations of the orbit, rates of rotation, and other bodies in the universe (exact arithmetic, consistent units)", "why_tests_cant": "An integral over a continuum of states; the polynomials in the eccentricity and the torque are in different files and no run would show that they do not belong together.", "anchors": ["src/tools.rs: calculate_pseudo_synchronization_period", "src/effects/tides/constant_time_lag.rs: calculate_torque_due_to_tides", "src/particles/universe.rs: calculate_additional_effects"]}
{"id": "C114", "title": "LeapFrog integrates rotation with the second order", "statement": "LeapFrog, documented as a second order integrator, also integrates the angular momenta with the second order: the error of a spin that follows a smooth torque is at most a constant times the square of the step.", "quantifier": "all step lengths, numbers of steps, winds, moments of inertia, masses and radii (exact arithmetic)", "why_tests_cant": "The order is a limit of ever shorter steps; each run alone looks right.", "anchors": ["src/integrator/leapfrog.rs: iterate, integrator_part1, integrator_part2"]}
{"id": "C115", "title": "A step of WHFast can be reversed", "statement": "A step of WHFast consists of Kepler motion, jump, kick, jump and Kepler motion, and its accelerations depend on masses and positions only. If the two-body problem is solved by a solver that can be reversed, such as its exact solution, then turning all velocities round after any number of steps and making as many steps more leads back exactly to the start with all velocities turned round, in all three systems of coordinates. The exact solution is the one that the formulas of the code describe, with the exact functions and the exact root of Kepler's equation in place of their approximations.", "quantifier": "all numbers of bodies, masses, positions, velocities, coordinates, step lengths and numbers of steps (exact arithmetic)", "why_tests_cant": "Rounding and the truncated series hide small irreversible terms, and a step that is not symmetric follows nearly the same trajectory over the length of a test.", "anchors": ["src/integrator/whfast.rs: iterate, integrator_part1, integrator_part2, kepler_steps, jump_step, interaction_step, inertial_to_alternative, alternative_to_inertial", "src/particles/universe.rs: gravity_calculate_acceleration"]}
{"id": "C116", "title": "Tides change energy and angular momentum of an orbit as Hut derived", "statement": "While a companion with constant-time-lag tides in itself and in its host runs once along any Kepler ellipse, the tidal forces that the universe computes do the work and give the angular momentum along the normal of the orbit that Hut (1981) derived with his functions f1, f2 and f5 of the eccentricity, for both tides. If both bodies rotate more slowly than the mean motion, or in other directions, the work is negative and the companion spirals in.", "quantifier": "all Kepler ellipses with eccentricity below 1, orientations, masses, radii, Love numbers, dissipation factors, directions and rates of rotation (exact arithmetic)", "why_tests_cant": "The mean is an integral over a revolution of a force with the eighth power of a distance; tests follow single orbits and can tell neither the functions of the eccentricity nor small errors of the force.", "anchors": ["src/effects/tides/common.rs: calculate_tidal_acceleration", "src/effects/tides/constant_time_lag.rs: calculate_orthogonal_component_of_the_tidal_force, calculate_radial_component_of_the_tidal_force, calculate_tidal_force, calculate_pair_dependent_scaled_dissipation_factors", "src/particles/universe.rs: calculate_additional_effects"]}
{"id": "C117", "title": "Tides change the eccentricity and turn the pericentre as Hut and Sterne derived", "statement": "The eccentricity vector changes at the rate given by its derivative along the motion. While a companion with constant-time-lag tides in itself and in its host runs once along any Kepler ellipse, the tidal accelerations that the universe computes change the eccentricity as Hut (1981) derived with f3 and f4, and turn the pericentre by 15 pi k2 (m/M) (R/a)^5 f4 (1 - e^2)^-5 for each of the two tides (Sterne 1939), the dissipation having no part in it.", "quantifier": "all Kepler ellipses with eccentricity below 1, orientations, masses, radii, Love numbers, dissipation factors, directions and rates of rotation (exact arithmetic)", "why_tests_cant": "Secular changes are tiny differences between large oscillations; a wrong radial or transverse component still gives plausible orbits.", "anchors": ["src/effects/tides/common.rs: calculate_tidal_acceleration", "src/effects/tides/constant_time_lag.rs: calculate_orthogonal_component_of_the_tidal_force, calculate_radial_component_of_the_tidal_force, calculate_tidal_force", "src/particles/universe.rs: calculate_additional_effects"]}
{"id": "C118", "title": "Relativity turns the pericentre by Einstein's angle", "statement": "While a companion runs once along a Kepler ellipse around its host, the relativistic accelerations that the universe computes turn the pericentre by 6 pi mu / (c^2 a (1 - e^2)) to the first order in 1/c^2, by the published angle of the second order in addition for Kidder's corrections, and leave the eccentricity as it is.", "quantifier": "all Kepler ellipses with eccentricity below 1, orientations, masses and speeds of light (exact arithmetic); Kidder's corrections for bodies that do not rotate, Anderson's to the first order", "why_tests_cant": "The angle is a few microradians for real planets, and tests for it use planets whose masses are negligible.", "anchors": ["src/effects/general_relativity.rs: calculate_kidder1995_general_relativity_acceleration, calculate_kidder1995_first_order_general_relativity_acceleration, calculate_kidder1995_second_order_general_relativity_acceleration, calculate_anderson1975_general_relativity_acceleration", "src/particles/universe.rs: calculate_additional_effects"]}
{"id": "C119", "title": "Flattening turns node and pericentre of an orbit at the classical rates", "statement": "While two bodies flattened by their rotation run once along any Kepler ellipse, the forces that the universe computes do no work, leave the eccentricity as it is, turn the pericentre in the plane of the orbit by 3/4 J2 (R/p)^2 (3 cos^2 i - 1) of a revolution for each of the bodies, and change the angular momentum of the orbit by a vector across the axis of the body: the node regresses by 3/2 J2 (R/p)^2 cos i of a revolution. J2 is a third of the Love number times the ratio of centrifugal to gravitational acceleration at the equator.", "quantifier": "all Kepler ellipses with eccentricity below 1, orientations, masses, radii, Love numbers and non-zero spins in any direction that are up to date (exact arithmetic)", "why_tests_cant": "Secular turns are tiny compared to the oscillations; tests with single inclinations do not see a wrong dependence on the inclination.", "anchors": ["src/effects/rotational_flattening/oblate_spheroid.rs: calculate_orthogonal_component_of_the_force_induced_by_rotational_flattening, calculate_radial_component_of_the_force_induced_by_rotational_flattening, calculate_acceleration_induced_by_rotational_flattering", "src/effects/rotational_flattening/common.rs: calculate_acceleration_induced_by_rotational_flattering", "src/particles/universe.rs: calculate_additional_effects"]}
{"id": "C120", "title": "A planet in a disk migrates at the speed of the disk", "statement": "While a companion moves by the attraction of its host and the acceleration that the universe computes for the disk, the semi-major axis of a circular orbit in the plane of the disk changes at the speed from which the code computes the timescale of migration: that of the gas, or slower in proportion where there is less gas than the mass of the planet.", "quantifier": "all masses, properties and ages of the disk, distances and directions of a circular orbit in the plane of the disk (exact arithmetic)", "why_tests_cant": "Migration takes thousands of years; tests compare with results of the same code.", "anchors": ["src/effects/disk.rs: DiskProperties::calculate_migration_timescale, DiskProperties::calculate_gas_radial_velocity, calculate_disk_interaction_acceleration", "src/particles/universe.rs: calculate_additional_effects"]}
{"id": "C121", "title": "WHFast converges with the second order", "statement": "Let bodies move under their Newtonian attraction without collisions. WHFast in democratic heliocentric or WHDS coordinates, started with them and solving its two-body problems up to a tolerance, is never further away from them than a constant times (h^2 + tolerance/h), in all positions and velocities after every number of steps of length h up to a given time. With exact two-body motion the error is of second order.", "quantifier": "all numbers of bodies, positive masses, collision-free solutions of Newton's equations, step lengths, numbers of steps and solvers of the two-body problem (exact arithmetic)", "why_tests_cant": "The order is a limit of ever shorter steps and compares with an unknown solution; a wrong mass or a missing jump gives orbits that look right.", "anchors": ["src/integrator/whfast.rs: iterate, integrator_part1, integrator_part2, kepler_steps, jump_step, interaction_step, inertial_to_alternative, alternative_to_inertial"]}
{"id": "C122", "title": "WHFast is symplectic", "statement": "Take any two families of systems through the same system and apply steps of WHFast in Jacobi, democratic heliocentric or WHDS coordinates with exact two-body motion. After any number of steps the results are differentiable families again, and the symplectic form, the sum over all bodies of mass times (position of the one times velocity of the other family minus the reverse), of the two rates of change has not changed.", "quantifier": "all numbers of bodies, positive masses, systems whose planets do not collide, step lengths, numbers of steps and pairs of differentiable families (exact arithmetic)", "why_tests_cant": "It is a statement about derivatives in every direction of phase space; an integrator that is not symplectic looks right until its energy has drifted for millions of years.", "anchors": ["src/integrator/whfast.rs: iterate, integrator_part1, integrator_part2, kepler_steps, jump_step, interaction_step, inertial_to_alternative, alternative_to_inertial"]}
{"id": "C123", "title": "The case file describes the universe that the library would construct", "statement": "A simulation is normally started from the JSON file that the Python front end writes. The front end accepts exactly the systems that the constructor of the library accepts, and the file describes the universe of the constructor: the same particles with their spins, moments of inertia and barycentric coordinates, the same considered effects, the same hosts (by number) and most massive body, in an array of ten particles.", "quantifier": "all lists of particles and settings, effects to consider, and arithmetics (particles: exact arithmetic)", "why_tests_cant": "The two programs are in different languages and are never run on the same input; the simulator trusts the file.", "anchors": ["posidonius/particles/universe.py: add_particle, disable_unnecessary_effects, compute_general_relativity_factor, update_hosts, get", "posidonius/particles/particle.py", "posidonius/tools.py: calculate_center_of_mass", "src/particles/universe.rs: Universe::new", "src/particles/particle.rs: Particle::new"]}
{"id": "C124", "title": "The case file contains the tables that the library would load", "statement": "For an evolving body the Python front end reads the table of the stellar or planetary model and writes it into the case file, with the radius at the initial time as the size of the body. It accepts exactly the bodies that the loader of the library accepts, and writes the same tables of times, radii, radii of gyration, Love numbers and tidal dissipation, and the same sizes.", "quantifier": "all evolution models, masses, contents of the input files, initial times and time limits (exact arithmetic)", "why_tests_cant": "Both programs read files of hundreds of lines in different languages; a shifted row or another unit shows up as a slightly different star.", "anchors": ["posidonius/effects/evolution.py", "posidonius/particles/universe.py: add_particle", "posidonius/tools.py: interpolate_b_spline, linear_interpolation", "src/effects/evolution.rs: Evolver::new", "src/particles/universe.rs: Universe::new"]}
{"id": "C125", "title": "The orbital elements that the front end reports are those of the orbit", "statement": "The Python front end computes orbital elements from positions and velocities, for a planet of one central body or of several, in the analysis of every history. For every bound or unbound state these are the elements of the orbit: semi-major axis, perihelion distance, eccentricity, inclination, longitudes of perihelion and node, mean and true anomaly.", "quantifier": "all conics, orientations and positions on the orbit, all lists of central bodies (exact arithmetic)", "why_tests_cant": "Elements have special cases (no eccentricity, no inclination, node on an axis), and a wrong angle in one of them looks like any other angle.", "anchors": ["posidonius/tools.py: calculate_keplerian_orbital_elements, _calculate_keplerian_orbital_elements, _calculate_eccentricity_vector, calculate_center_of_mass"]}
{"id": "C126", "title": "The front end puts planets on the requested orbits", "statement": "The Python front end turns orbital elements into the positions and velocities of the case file, for planets of one central body or of several. The planet moves about the centre of mass of its central bodies on the conic with the requested perihelion distance, eccentricity, inclination, node and longitude of perihelion, and the elements computed back are the requested ones.", "quantifier": "all elements of ellipses, parabolas and hyperbolas, all lists of central bodies (exact arithmetic)", "why_tests_cant": "A slightly different orbit is as plausible as the requested one, and there is no test with several central bodies.", "anchors": ["posidonius/tools.py: calculate_cartesian_coordinates, _calculate_cartesian_coordinates, kepler_solution_for_a_parabola, kepler_solution_for_a_hyperbola, kepler_solution_for_a_hyperbola_hybrid_approach_for_low_n, calculate_center_of_mass"]}
{"id": "C127", "title": "The simulator reads the files of the front end", "statement": "Every case file that the Python front end writes is read by the simulator, as the integrator that was chosen, and in exactly the state that the case describes: all bodies with their effects, models, tables and coordinates, hosts, times, periods of snapshots and working arrays.", "quantifier": "all cases (bodies, effects, tidal models, tables, integrators, numbers) and all texts of doubles that are exact for finite doubles", "why_tests_cant": "The keys, their order and the lengths of the arrays agree only by convention between two languages, and serde tries three structures of a hundred fields in turn; tests read a handful of files.", "anchors": ["posidonius/particles/universe.py: ConsiderEffects, Universe.get, Universe.write", "posidonius/particles/particle.py", "posidonius/effects/*.py", "posidonius/integrator/*.py", "src/integrator/output.rs: restore_snapshot", "src/particles/*.rs, src/effects/*.rs, src/integrator/*.rs: derive(Deserialize)"]}
{"id": "C128", "title": "The tidal heating of the analysis is the mean of the heat that the simulator reports", "statement": "The analysis computes the tidal heating of a planet from the elements of its orbit, its rotation and obliquity. This is the mean of the heat that the simulator reports at every instant for the same planet with constant time lag, over a revolution and evenly over the positions of the equator. It is never negative, and zero exactly for planets on circles that turn with their orbit without tilt.", "quantifier": "all elliptic orbits, masses, radii, rotations in any direction and dissipation factors (exact arithmetic)", "why_tests_cant": "One is a closed formula in eccentricity and obliquity, the other a sum over forces in a running simulation in another language; they have never been compared.", "anchors": ["posidonius/analysis/computation.py: energydot, _Na1, _Na2, _No2, _norb, _Kplan", "scripts/explore_history.py: planet_obliquity, gravitational_energy_lost", "src/effects/tides/common.rs: calculate_denergy_dt"]}
{"id": "C129", "title": "The elements that the analysis reports are those of the orbits", "statement": "The analysis turns the positions and velocities of a history into coordinates relative to a reference body and into semi-major axes, eccentricities and inclinations. For every body but the reference these are the elements of its orbit around the reference, and they do not depend on the origin of the coordinates.", "quantifier": "all lists of bodies, reference bodies, positions and velocities (exact arithmetic)", "why_tests_cant": "Elements that are slightly off look like perturbations by the other planets.", "anchors": ["posidonius/analysis/history.py: classify", "posidonius/tools.py: calculate_keplerian_orbital_elements"]}
{"id": "C130", "title": "The quantities explored from a history are what they are called", "statement": "From every history the analysis derives obliquities, the precession angle of the planet, corotation radius, orbital and pseudo-synchronization period, mean tidal flux and orbital angular momentum. Each is the quantity of that name: the angle between rotation axis and normal of the orbit, the angle between planet and rotation axis in the plane of the orbit, the radius where planets move as fast as the star turns, the period of the orbit and of the rotation without mean torque, the mean heat per surface, and the angular momentum of star and planets about their centre of mass.", "quantifier": "all positions, velocities, rotations, masses, orbits, tidal models and numbers of planets (exact arithmetic)", "why_tests_cant": "The numbers go into plots and tables of publications; there is no second program that computes them.", "anchors": ["scripts/explore_history.py", "posidonius/effects/tides.py"]}
{"id": "C131", "title": "The analysis finds the resonances of the planets", "statement": "The analysis proposes mean-motion resonances for a ratio of periods and tests each by the resonant angles of the two planets. All resonances within the uncertainty and the limits are proposed, and no others; the angles, nodes and apsides are those of the orbits; the resonant angles lie in the range around the chosen centre and do not depend on the direction from which longitudes are counted; and an angle that librates is recognized wherever it librates.", "quantifier": "all ratios, uncertainties, limits and samplings, all pairs of ellipses, all time series of angles, centres and thresholds (exact arithmetic)", "why_tests_cant": "Folding of angles goes wrong only where the fold is, and a resonance that is not proposed leaves no trace.", "anchors": ["posidonius/analysis/resonances.py: get_possible_resonances, is_resonance, calculate_resonance_data, get_subplot_shape"]}
{"id": "C132", "title": "The physical constants are those that they are called", "statement": "Simulator and front end share physical constants in solar masses, astronomical units and days. Each is the constant of the cited tables (IAU 2009, IAU 2015 B3, CODATA 2017) in these units, in both programs: gravitational constant, speed of light, radii of Sun and Earth, mass of the Earth, Boltzmann constant, mass of the hydrogen atom and the frequencies derived from them. In particular orbits take the time that they take in nature.", "quantifier": "all constants; periods for all semi-major axes and masses (exact arithmetic)", "why_tests_cant": "All tests use the same constants, so that a wrong digit changes program and expectation alike.", "anchors": ["src/constants.rs", "posidonius/constants.py"]}
{"id": "C133", "title": "Radii of planets, rotations and interpolation in the front end", "statement": "The front end derives the radius of a planet from its mass and composition, the rotation vector from rate and angles, and the period of pseudo-synchronous rotation, and it interpolates tables. Radii are positive, grow with the mass, do not depend on the unit of the mass and are right for the Earth; rotations, periods and interpolated values are those that the library computes.", "quantifier": "all masses, fractions of rock, angles, orbits and increasing tables (exact arithmetic)", "why_tests_cant": "A fit is plausible where it was made and is evaluated everywhere; the tests take a handful of planets.", "anchors": ["posidonius/tools.py: mass_radius_relation, calculate_spin, calculate_pseudo_synchronization_period, cosine_interpolation", "src/tools.rs: calculate_spin, calculate_pseudo_synchronization_period, cosine_interpolation"]}
{"id": "C134", "title": "Cleaning a case file does not change the case", "statement": "The project keeps its case files in a normal form: a script reads each file and writes it back with sorted keys and indentation, in place. The simulator reads the new file as the same integrator with the same state; two files that differ in the order of keys and in the text of numbers only become the same text; and cleaning again changes nothing.", "quantifier": "all JSON files in which no object has a key twice, all printers of numbers that preserve the value", "why_tests_cant": "The script overwrites its input, so that nothing is left to compare with.", "anchors": ["scripts/clean_json.py", "src/integrator/output.rs: restore_snapshot"]}
{"id": "C135", "title": "The resonances in the course of time are those of neighbouring planets", "statement": "A script goes through a history and lists for each planet its resonances with the next one outwards, each with its range of time. A resonance is found at a time if and only if the two planets are neighbours then and the test of the last fifteen samples accepts it; successive detections of one resonance are one entry and single ones are left out unless they are the last; the ranges of a planet do not overlap and lie within the history; each entry names the planet with which the resonance is; and this holds for histories of every length.", "quantifier": "all histories, numbers of planets, of which some may end early, and proposals of resonances (exact arithmetic)", "why_tests_cant": "The result is a figure, which looks right whatever is joined and left out.", "anchors": ["scripts/explore_timed_resonances.py"]}
{"id": "C136", "title": "Places of the planets by distance", "statement": "The place of a planet, which positions its resonances in the figure, is one more than the number of planets closer to the star; every place is taken once.", "quantifier": "all numbers of planets and all distances (exact arithmetic)", "why_tests_cant": "Sorting the sorting permutation gives the right places in all cases in which the permutation is its own inverse, such as all orders of two planets.", "anchors": ["scripts/explore_timed_resonances.py"]}
{"id": "C137", "title": "WHFast in a universe without other effects is the splitting of Newton's equations", "statement": "Without tides, flattening, relativity and disk, an iteration of the simulator with WHFast is, for the positions and velocities of all bodies, the step of the splitting: the accelerations of the kick are those of the pairs that the Kepler motions do not contain, the half steps for other forces and the records change nothing, and the corrections of the compensated summation stay zero. Hence the error of a run of the simulator is of the second order in the time step plus the error of the solver of Kepler's equation per step.", "quantifier": "all universes without other effects, numbers of bodies and iterations, records and time steps; the order for democratic heliocentric and WHDS coordinates and all motions without collisions (exact arithmetic)", "why_tests_cant": "Which pairs are left out depends on coordinates, host and order of the bodies; a pair counted twice or not at all is a small perturbation of the orbits.", "anchors": ["src/integrator/whfast.rs: iterate, iterate_position_and_velocity_with_whfasthelio_part1, iterate_position_and_velocity_with_whfasthelio_part2, integrate_velocity_dependent_forces", "src/particles/universe.rs: gravity_calculate_acceleration"]}
{"id": "C138", "title": "The history as text", "statement": "A script turns a history into text files for other programs. There is one file for each body, and nothing else; its lines are the whole snapshots in their order, also if the history is cut off at the end, and each column holds the quantity of its name.", "quantifier": "all numbers of bodies, histories and numbers of bytes that are present, at least a whole snapshot", "why_tests_cant": "Nineteen columns pass through two programs by position and by name; columns that are exchanged are numbers as well.", "anchors": ["scripts/raw_history.py", "posidonius/analysis/history.py: read"]}
{"id": "C139", "title": "The figure of one resonance", "statement": "For two planets, counted from the star, and a resonance a script draws the ratio of the periods, the difference of the longitudes of the perihelia and all resonant angles. They are the quantities of these names for the two planets at all times, the angles are those by which the resonance is tested and lie between -90 and 270 degrees, the figure has room for all, and numbers of planets that do not exist or are not in the order from inside to outside are refused.", "quantifier": "all histories, numbers of planets and periods (exact arithmetic)", "why_tests_cant": "The result is a figure; a wrong planet has angles as well.", "anchors": ["scripts/explore_single_resonance.py"]}
{"id": "C140", "title": "Sine and cosine of a reduced angle", "statement": "A private helper takes an angle and returns it reduced by whole turns together with its sine and its cosine. The reduced angle is not negative and differs from the given one by whole turns, and the two numbers are the sine and the cosine of the given angle.", "quantifier": "all angles (exact arithmetic)", "why_tests_cant": "The sine is taken from the cosine by a root and its sign from the reduced angle; a comment in the code says that the results differ from those of the ordinary functions and asks why.", "anchors": ["src/tools.rs: mco_sine"]}
{"id": "C141", "title": "IAS15 and the order of the bodies", "statement": "If the bodies are listed in another order and the forces are the same, body by body, a step of IAS15 repeats its corrections and its attempts equally often, has the same length, and ends with the same positions, velocities, spins and coefficients, body by body.", "quantifier": "all numbers of bodies, orders, states and forces (exact arithmetic)", "why_tests_cant": "Both runs look plausible; the largest acceleration and torque are searched for in the order of the list.", "anchors": ["src/integrator/ias15.rs: integrator, predict_next_step"]}
{"id": "C142", "title": "IAS15 in other units", "statement": "With all quantities converted to other units of length, time and angular momentum, and forces that convert as well, a step of IAS15 repeats its corrections and its attempts equally often, and has the same length and the same results, converted.", "quantifier": "all units, numbers of bodies, states and forces (exact arithmetic)", "why_tests_cant": "A limit or a comparison of quantities of different dimension changes results only in other units, and there only a little.", "anchors": ["src/integrator/ias15.rs: integrator, predict_next_step"]}
{"id": "C143", "title": "IAS15 for an observer in uniform motion", "statement": "For an observer at another place and in uniform motion, with forces that are the same for both, a step of IAS15 repeats its corrections and its attempts equally often, has the same length, and gives the same positions and velocities as seen by that observer.", "quantifier": "all observers, numbers of bodies, states and forces (exact arithmetic)", "why_tests_cant": "The integrator is hardly ever run in two frames, and a dependence on the origin shows only far from it.", "anchors": ["src/integrator/ias15.rs: integrator"]}
{"id": "C144", "title": "A Kepler step of WHFast in other units and for other axes", "statement": "With lengths, times and the gravitational parameter converted to other units, or with all vectors rotated, a Kepler step of WHFast takes the same branches, ends after the same number of rounds, and gives the same position and velocity, converted or rotated.", "quantifier": "all units, rotations, orbits and time steps (exact arithmetic)", "why_tests_cant": "The solver compares with limits and falls back on other methods; a limit with a dimension changes results only in other units.", "anchors": ["src/integrator/whfast.rs: kepler_individual_step, stiefel_gs3, stumpff_cs3"]}
{"id": "C145", "title": "A step of WHFast in other units and for other axes", "statement": "With all quantities converted to other units of length and time and all vectors rotated, and accelerations that convert as well, a step of WHFast gives the same positions and velocities, converted and rotated, in each of the three coordinate systems.", "quantifier": "all units, rotations, numbers of bodies, states and accelerations (exact arithmetic)", "why_tests_cant": "The code is only ever run in AU and days; a constant with a dimension changes results a little and only in other units.", "anchors": ["src/integrator/whfast.rs: iterate_position_and_velocity_with_whfasthelio_part1, iterate_position_and_velocity_with_whfasthelio_part2, jacobi_interaction_step"]}
{"id": "C146", "title": "WHFast for an observer in uniform motion", "statement": "For an observer at another place and in uniform motion, with accelerations that are the same for both, a step of WHFast gives the same positions and velocities as seen by that observer, in each of the three coordinate systems.", "quantifier": "all observers, numbers of bodies with positive masses, states and accelerations (exact arithmetic)", "why_tests_cant": "Runs start in the frame of the centre of mass, where a dependence on its motion cannot be seen.", "anchors": ["src/integrator/whfast.rs: iterate_position_and_velocity_with_whfasthelio_part1, iterate_position_and_velocity_with_whfasthelio_part2, inertial_to_jacobi_posvel, jacobi_to_inertial_posvel"]}
{"id": "C147", "title": "WHFast and the order of the planets", "statement": "With the planets listed in another order, and accelerations that are the same planet by planet, a step of WHFast in democratic heliocentric coordinates or WHDS gives the same positions and velocities, planet by planet.", "quantifier": "all numbers and orders of planets, states and accelerations (exact arithmetic)", "why_tests_cant": "Factorially many orders; a test fixes one of them.", "anchors": ["src/integrator/whfast.rs: iterate_position_and_velocity_with_whfasthelio_part1, iterate_position_and_velocity_with_whfasthelio_part2, inertial_to_whds_and_democratic_heliocentric_posvel, whds_and_democratic_heliocentric_to_inertial_posvel"]}
