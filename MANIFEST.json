{"claims": [
 {"property": "C01", "status": "proved", "theorems": ["Posidonius.Output.C01_record_size_exact", "Posidonius.Output.C01_record_appends"], "note": ""},
 {"property": "C02", "status": "proved", "theorems": ["Posidonius.Output.C02_rows_roundtrip", "Posidonius.Output.C02_reader_inverts_writer"], "note": ""},
 {"property": "C03", "status": "proved", "theorems": ["Posidonius.Output.C03_cut_history", "Posidonius.Output.C03_cut_in_first_snapshot"], "note": ""},
 {"property": "C04", "status": "proved", "theorems": ["Posidonius.Disk.C04_recovery_snapshots_are_invisible"], "note": ""},
 {"property": "C05", "status": "proved", "theorems": ["Posidonius.Disk.C05_resume_reproduces_history", "Posidonius.Disk.C05_history_is_always_a_prefix", "Posidonius.Disk.C05_resume_can_complete", "Posidonius.Disk.C05_fixed_step"], "note": ""},
 {"property": "C06", "status": "proved", "theorems": ["Posidonius.Disk.C06_history_covers_snapshots", "Posidonius.Disk.C06_complete_snapshot_can_be_resumed"], "note": ""},
 {"property": "C07", "status": "partial", "theorems": ["Posidonius.Disk.C07_violated", "Posidonius.Disk.C07_violated_no_resume", "Posidonius.Disk.C07_partial", "Posidonius.Disk.C07_partial_newest_survives"], "note": "False of the code: the old recovery file is renamed away before the new one is written (C07_violated). Proved instead: some complete snapshot exists at every point once one was written."},
 {"property": "C08", "status": "proved", "theorems": ["Posidonius.Driver.C08_history_is_the_records", "Posidonius.Driver.C08_first_record", "Posidonius.Driver.C08_record_order_fixed", "Posidonius.Driver.C08_record_order_adaptive"], "note": ""},
 {"property": "C09", "status": "proved", "theorems": ["Posidonius.Driver.C09_schedule", "Posidonius.Driver.C09_no_drift", "Posidonius.Driver.C09_short_period"], "note": ""},
 {"property": "C10", "status": "proved", "theorems": ["Posidonius.Driver.C10_record_rule", "Posidonius.Driver.C10_records_one_period_apart"], "note": ""},
 {"property": "C11", "status": "proved", "theorems": ["Posidonius.Driver.C11_run_ends", "Posidonius.Driver.C11_whfast_never_passes_limit", "Posidonius.Driver.C11_absorbed_step_never_completes"], "note": ""},
 {"property": "C12", "status": "partial", "theorems": ["Posidonius.Driver.C12_violated", "Posidonius.Driver.C12_partial"], "note": "False of the code: completion returns before any recovery snapshot is written (C12_violated). Proved instead: what the last snapshot on disk is."},
 {"property": "C13", "status": "proved", "theorems": ["Posidonius.Driver.C13_nonpositive_ignored", "Posidonius.Driver.C13_takes_effect", "Posidonius.Driver.C13_refused_iff", "Posidonius.Driver.C13_sequence"], "note": ""},
 {"property": "C14", "status": "proved", "theorems": ["Posidonius.Driver.C14_periods", "Posidonius.Driver.C14_periods_exact"], "note": ""},
 {"property": "C15", "status": "partial", "theorems": ["Posidonius.Main.C15_violated", "Posidonius.Main.C15_partial"], "note": "False of the code: --time-limit is declared as u64 and read as f64, so giving it always panics (C15_violated). Proved instead: the two other options."},
 {"property": "C16", "status": "partial", "theorems": ["Posidonius.Main.C16_violated", "Posidonius.Main.C16_partial_rule", "Posidonius.Main.C16_partial_at_limit", "Posidonius.Main.C16_partial_schedule"], "note": "False of the code: with --limit no periodic recovery snapshot is written (C16_violated). Proved instead: the exact rule and the schedule without --limit."},
 {"property": "C17", "status": "proved", "theorems": ["Posidonius.Main.C17_start_never_overwrites", "Posidonius.Main.C17_effects", "Posidonius.Main.C17_begins_with_the_case"], "note": ""},
 {"property": "C18", "status": "partial", "theorems": ["Posidonius.CaseJson.C18_partial_universe", "Posidonius.Json.C18_partial", "Posidonius.Json.C18_violated", "Posidonius.Json.C18_partial_nonfinite", "Posidonius.Json.C18_partial_kind"], "note": "False of the code: a WHFast simulation whose only non-finite doubles are in fields LeapFrog does not have is written as JSON null and read back as a LeapFrog simulation (C18_violated). Proved instead: every finite state is restored as the same kind and value; non-finite IAS15/LeapFrog states are never restored."},
 {"property": "C19", "status": "proved", "theorems": ["Posidonius.Gravity.C19_newtons_law", "Posidonius.Gravity.C19_forces_balance", "Posidonius.Gravity.C19_torques_balance"], "note": ""},
 {"property": "C20", "status": "proved", "theorems": ["Posidonius.Gravity.C20_translation", "Posidonius.Gravity.C20_rotation", "Posidonius.Gravity.C20_permutation"], "note": ""},
 {"property": "C21", "status": "proved", "theorems": ["Posidonius.Leapfrog.C21_linear_momentum", "Posidonius.Leapfrog.C21_angular_momentum", "Posidonius.Leapfrog.C21_spin"], "note": ""},
 {"property": "C22", "status": "proved", "theorems": ["Posidonius.Leapfrog.C22_midpoint_rule", "Posidonius.Leapfrog.C22_time_reversible"], "note": ""},
 {"property": "C23", "status": "proved", "theorems": ["Posidonius.WHFast.C23_there_and_back", "Posidonius.WHFast.C23_back_and_there", "Posidonius.WHFast.C23_centre", "Posidonius.WHFast.C23_heliocentric", "Posidonius.WHFast.C23_jacobi"], "note": ""},
 {"property": "C24", "status": "proved", "theorems": ["Posidonius.WHFast.C24_angular_momentum", "Posidonius.WHFast.C24_energy", "Posidonius.WHFast.C24_unique_anomaly", "Posidonius.WHFast.C24_two_body", "Posidonius.WHFast.C24_zero_step", "Posidonius.WHFast.C24_newton"], "note": "All clauses are proved for every set of functions with the differential equations of Stiefel and Scheifele: angular momentum, energy, the two-body motion for all times, one anomaly for every time, identity for the zero step. What the solver returns is C108, how close the functions of the code are is C73."},
 {"property": "C25", "status": "proved", "theorems": ["Posidonius.WHFast.C25_interaction", "Posidonius.WHFast.C25_jump"], "note": ""},
 {"property": "C26", "status": "proved", "theorems": ["Posidonius.Interp.C26_piecewise_linear", "Posidonius.Interp.C26_between_bounds", "Posidonius.Interp.C26_exact_at_nodes", "Posidonius.Interp.C26_exact_for_linear_data", "Posidonius.Tools.C26_cosine"], "note": ""},
 {"property": "C27", "status": "proved", "theorems": ["Posidonius.Interp.C27_indices_in_bounds", "Posidonius.Interp.C27_never_panics"], "note": ""},
 {"property": "C28", "status": "proved", "theorems": ["Posidonius.Evolution.C28_lookups_never_panic", "Posidonius.Evolution.C28_cached_equals_full"], "note": ""},
 {"property": "C29", "status": "partial", "theorems": ["Posidonius.Evolution.C29_partial", "Posidonius.Evolution.C29_violated"], "note": "False of the code: the cached search index moves past the sample in use, so going back in time by less than a sample returns a wrong value (C29_violated, for every table of more than 12 samples). Proved instead: lookups are exact as long as no sample lies between the time asked for and the latest one before."},
 {"property": "C30", "status": "partial", "theorems": ["Posidonius.Evolution.C30_violated", "Posidonius.Evolution.C30_partial"], "note": "False of the code: the tabulated Love number is stored into a copy of the effect and lost (C30_violated, any arithmetic, any table). Proved instead: radius, radius of gyration and moment of inertia follow the table."},
 {"property": "C31", "status": "proved", "theorems": ["Posidonius.Tools.C31_modulus"], "note": ""},
 {"property": "C32", "status": "partial", "theorems": ["Posidonius.Tools.C32_turns_partial", "Posidonius.Tools.C32_mirror_partial", "Posidonius.Tools.C32_apoapsis_partial", "Posidonius.Tools.C32_periapsis_partial", "Posidonius.Tools.C32_half_partial", "Posidonius.Tools.C32_partial_parabola", "Posidonius.Tools.C32_violated_hyperbola", "Posidonius.Tools.C32_violated_ellipse", "Posidonius.Tools.C32_partial_circular", "Posidonius.Tools.C32_ellipse_partial"], "note": "Parabola: exact for |m| >= 1/1000, residual at most |m|^7 below; circle exact; ellipses with M >= 0: residual at most e^5/50 + 2e/10^16 for e <= 1/10 (C32_ellipse_partial) and 1/10^5 for e <= 1/2 (C32_half_partial); for all e exact at the apoapsis, from 0.55 on also at the periapsis, the same in every turn and opposite on both halves of the orbit (C32_apoapsis_partial, C32_periapsis_partial, C32_turns_partial, C32_mirror_partial). Violated: hyperbola (low N branch returns the mean anomaly) and ellipse with negative mean anomaly. Missing: residual bound of the elliptic solver between the apsides for e > 1/2."},
 {"property": "C33", "status": "proved", "theorems": ["Posidonius.Univ.C33_momentum", "Posidonius.Univ.C33_evaluation"], "note": ""},
 {"property": "C34", "status": "partial", "theorems": ["Posidonius.Univ.C34_exact_rate", "Posidonius.Univ.C34_partial", "Posidonius.Univ.C34_violated"], "note": "Exact rate proved; conserved when the stored spins are current; violated otherwise (stale spins)."},
 {"property": "C35", "status": "partial", "theorems": ["Posidonius.Univ.C35_heating_partial", "Posidonius.Univ.C35_nonneg_partial", "Posidonius.Univ.C35_synchronous_partial", "Posidonius.Univ.C35_violated_first_record", "Posidonius.Univ.C35_violated"], "note": "Non-negative and zero for synchronous circular orbits right after an evaluation with current spins; the recorded value can be NaN (first record) or negative (refreshed spin, old torque)."},
 {"property": "C36", "status": "partial", "theorems": ["Posidonius.Univ.C36_violated", "Posidonius.Univ.C36_partial"], "note": "Violated for every system with a body without tides; forces are unaffected."},
 {"property": "C37", "status": "proved", "theorems": ["Posidonius.Univ.C37_no_interference", "Posidonius.Univ.C37_last_stored", "Posidonius.Univ.C37_removed", "Posidonius.Univ.C37_no_dynamical_tide"], "note": ""},
 {"property": "C38", "status": "proved", "theorems": ["Posidonius.Univ.C38_momentum", "Posidonius.Univ.C38_angular_momentum"], "note": ""},
 {"property": "C39", "status": "partial", "theorems": ["Posidonius.Univ.C39_violated", "Posidonius.Univ.C39_violated_host", "Posidonius.Univ.C39_partial"], "note": "False: a body that does not rotate makes the host's acceleration NaN (C39_violated, C39_violated_host). C39_partial: rotating pairs at a positive distance have finite values."},
 {"property": "C40", "status": "proved", "theorems": ["Posidonius.Univ.C40_momentum", "Posidonius.Univ.C40_parts", "Posidonius.Univ.C40_torque"], "note": ""},
 {"property": "C41", "status": "proved", "theorems": ["Posidonius.Univ.C41_momentum", "Posidonius.Univ.C41_force", "Posidonius.Univ.C41_inside", "Posidonius.Univ.C41_dissipates", "Posidonius.Univ.C41_wind", "Posidonius.Univ.C41_wind_brakes", "Posidonius.Univ.C41_wind_continuous"], "note": ""},
 {"property": "C42", "status": "proved", "theorems": ["Posidonius.Univ.C42_center", "Posidonius.Univ.C42_bodies"], "note": ""},
 {"property": "C43", "status": "partial", "theorems": ["Posidonius.Univ.C43_enabled", "Posidonius.Univ.C43_rejects", "Posidonius.Univ.C43_hosts", "Posidonius.Univ.C43_most_massive", "Posidonius.Univ.C43_consistent", "Posidonius.Univ.C43_hosts_partial", "Posidonius.Univ.C43_violated", "Posidonius.Univ.C43_violated_alone"], "note": "Violated: a disk whose edges are both zero stays considered without a host, every evaluation of accelerations panics. Everything else is proved."},
 {"property": "C44", "status": "partial", "theorems": ["Posidonius.Univ.C44_coordinates", "Posidonius.Univ.C44_speed_partial", "Posidonius.Univ.C44_idempotent_partial", "Posidonius.Univ.C44_settles", "Posidonius.Univ.C44_violated"], "note": "Violated for the speeds at the first update when the host was supplied with a velocity; proved otherwise."},
 {"property": "C45", "status": "partial", "theorems": ["Posidonius.Gravity.C45_partial_goes_on_iff", "Posidonius.Gravity.C45_partial_message", "Posidonius.Gravity.C45_partial_collisions", "Posidonius.Gravity.C45_partial_ejection", "Posidonius.Gravity.C45_violated"], "note": "False of the code: the ejection check only looks at pairs (i, j<i) with the host first, so it never fires when the most massive body is listed last (C45_violated). Proved instead: the exact condition for going on, collisions always detected, ejection detected when the host is listed first."},
 {"property": "C46", "status": "proved", "theorems": ["Posidonius.Ias15.C46_continuation", "Posidonius.Ias15.C46_correction", "Posidonius.Ias15.C46_exact", "Posidonius.Ias15.C46_attempt"], "note": ""},
 {"property": "C47", "status": "proved", "theorems": ["Posidonius.Ias15.C47_velocity", "Posidonius.Ias15.C47_position", "Posidonius.Ias15.C47_end", "Posidonius.Ias15.C47_places"], "note": ""},
 {"property": "C48", "status": "proved", "theorems": ["Posidonius.Ias15.C48_sweeps", "Posidonius.Ias15.C48_rejected", "Posidonius.Ias15.C48_step", "Posidonius.Ias15.C48_iteration", "Posidonius.Ias15.C48_ends", "Posidonius.Ias15.C48_nan", "Posidonius.Ias15.C48_relative", "Posidonius.Univ.C48_universe", "Posidonius.Univ.C48_run"], "note": "Proved: number of sweeps for any arithmetic, restored coordinates after a rejection for any arithmetic, accepted step advances the time by the step, and the loop ends if the wanted steps have a lower bound (exact arithmetic). A NaN estimate counts as no error: the step is accepted and the next one is four times longer (C48_nan). For runs of the whole program with gravity and all effects the time increases with every iteration and the steps stay positive (C48_universe, C48_run)."},
 {"property": "C49", "status": "proved", "theorems": ["Posidonius.WHFast.C49_evaluations", "Posidonius.WHFast.C49_succeeds", "Posidonius.WHFast.C49_iteration", "Posidonius.WHFast.C49_fixed_point", "Posidonius.WHFast.C49_accuracy"], "note": "Accuracy is stated for forces for which the midpoint map contracts; when all angular momenta (or velocities) are zero the criterion of the code is 0/0 and all ten evaluations are made (example beside the theorem)."},
 {"property": "C50", "status": "proved", "theorems": ["Posidonius.Ias15.C50_add", "Posidonius.Ias15.C50_add_exact", "Posidonius.Ias15.C50_sum", "Posidonius.Ias15.C50_velocity", "Posidonius.Ias15.C50_position", "Posidonius.WHFast.C50_midpoint", "Posidonius.WHFast.C50_midpoint_exact"], "note": ""},
 {"property": "C51", "status": "proved", "theorems": ["Posidonius.Creep.C51_ends", "Posidonius.Creep.C51_solves", "Posidonius.Creep.C51_true_anomaly", "Posidonius.Creep.C51_endless"], "note": ""},
 {"property": "C52", "status": "partial", "theorems": ["Posidonius.Kaula.C52_interpolates", "Posidonius.Kaula.C52_parity", "Posidonius.Kaula.C52_violated_zero", "Posidonius.Kaula.C52_violated_short", "Posidonius.Kaula.C52_violated_nan"], "note": "For sorted tables the lookup is the linear interpolation, clamped outside, with the right parity (C52_interpolates, C52_parity). False at frequency zero (C52_violated_zero), for tables padded with zeros as the loaders of the repository do (C52_violated_short), and NaN panics (C52_violated_nan)."},
 {"property": "C53", "status": "partial", "theorems": ["Posidonius.Kaula.C53_orthogonal", "Posidonius.Kaula.C53_violated_radial", "Posidonius.Kaula.C53_orthogonal_force"], "note": "True of the orthogonal component (C53_orthogonal, C53_orthogonal_force: limit for small eccentricity); false for the radial one unless real and imaginary part agree (C53_violated_radial is an equivalence)."},
 {"property": "C54", "status": "partial", "theorems": ["Posidonius.Gravity.C54_partial_symmetric", "Posidonius.Gravity.C54_partial_symmetric_equal", "Posidonius.Gravity.C54_violated", "Posidonius.Gravity.C54_partial_positive"], "note": "False of the code: for equal masses and different radii the Roche radius depends on the order (C54_violated). Proved instead: symmetric if masses differ, or masses and radii are equal; positive for positive inputs."},
 {"property": "C55", "status": "partial", "theorems": ["Posidonius.Univ.C55_violated", "Posidonius.Univ.C55_current_spins_partial", "Posidonius.Univ.C55_no_spin_coupling_partial", "Posidonius.Univ.C55_ias15_current_spins_partial", "Posidonius.Univ.C55_ias15_no_spin_coupling_partial", "Posidonius.Univ.C55_whfast_current_spins_partial", "Posidonius.Univ.C55_whfast_no_spin_coupling_partial"], "note": "violated: recording refreshes the spins that the tides of the iteration read before refreshing (C55_violated, exact rational witness, LeapFrog). Partial, for LeapFrog, IAS15 and WHFast: in any arithmetic nothing but the stored heating changes if the stored spins are up to date, and nothing at all without tides and flattening. Missing: evolution tables."},
 {"property": "C56", "status": "proved", "theorems": ["Posidonius.Tools.C56_on_requested_orbit", "Posidonius.Tools.C56_round_trip"], "note": ""},
 {"property": "C57", "status": "partial", "theorems": ["Posidonius.Tools.C57_partial", "Posidonius.Tools.C57_violated_inclination", "Posidonius.Tools.C57_violated_circular"], "note": "Exact recovery for cos(node) >= 0 and e >= 3e-8. Violated: inclination is 2*pi - i when cos(node) < 0; mean anomaly folded into [0, pi] for circular orbits."},
 {"property": "C58", "status": "proved", "theorems": ["Posidonius.Tools.C58_spin", "Posidonius.Tools.C58_obliquity"], "note": ""},
 {"property": "C59", "status": "proved", "theorems": ["Posidonius.Tools.C59_pseudo_synchronization"], "note": ""},
 {"property": "C60", "status": "proved", "theorems": ["Posidonius.Evolution.C60_lag_angle"], "note": ""},
 {"property": "C61", "status": "partial", "theorems": ["Posidonius.Univ.C61_host_partial", "Posidonius.Univ.C61_violated"], "note": "The host's side holds; the companion's side removes the wrong entry."},
 {"property": "C62", "status": "proved", "theorems": ["Posidonius.Univ.C62_panics"], "note": ""},
 {"property": "C63", "status": "partial", "theorems": ["Posidonius.Univ.C63_partial"], "note": "For spins that are up to date and non-zero; with stale spins the stored products belong to the old spins."},
 {"property": "C64", "status": "partial", "theorems": ["Posidonius.Univ.C64_exact_partial", "Posidonius.Univ.C64_violated", "Posidonius.Univ.C64_violated_torque", "Posidonius.Univ.C64_violated_at_rest"], "note": "The first order part is Kidder's; the second order part is divided by c^2 instead of c^4, spin-orbit part and torques lack 1/r^3, the recoil is added to a relative acceleration: refuted by C64_violated, C64_violated_torque, C64_violated_at_rest."},
 {"property": "C65", "status": "proved", "theorems": ["Posidonius.Univ.C65_momentum"], "note": ""},
 {"property": "C66", "status": "partial", "theorems": ["Posidonius.Univ.C66_sweep", "Posidonius.Univ.C66_sweeps_partial", "Posidonius.Univ.C66_violated"], "note": "A sweep is the Einstein-Infeld-Hoffmann equations (C66_sweep); the test of convergence ends the iteration after the first sweep, whose result is not a solution (C66_violated)."},
 {"property": "C67", "status": "partial", "theorems": ["Posidonius.Univ.C67_complete_partial", "Posidonius.Univ.C67_restored_partial", "Posidonius.Univ.C67_violated"], "note": "Proved without ignored terms and for a host at the inertial origin; false elsewhere (C67_violated)."},
 {"property": "C68", "status": "partial", "theorems": ["Posidonius.Univ.C68_offset_partial", "Posidonius.Univ.C68_violated"], "note": "Violated: the two functions use the heliocentric frame; the exact offset is proved."},
 {"property": "C69", "status": "proved", "theorems": ["Posidonius.Univ.C69_rotation"], "note": ""},
 {"property": "C70", "status": "proved", "theorems": ["Posidonius.WHFast.C70_step"], "note": ""},
 {"property": "C71", "status": "proved", "theorems": ["Posidonius.WHFast.C71_decomposition", "Posidonius.WHFast.C71_jump", "Posidonius.WHFast.C71_kick", "Posidonius.WHFast.C71_kick_conserves", "Posidonius.WHFast.C71_step"], "note": ""},
 {"property": "C72", "status": "partial", "theorems": ["Posidonius.WHFast.C72_positions", "Posidonius.WHFast.C72_velocities", "Posidonius.WHFast.C72_jacobi", "Posidonius.WHFast.C72_softening_partial", "Posidonius.WHFast.C72_violated_jacobi", "Posidonius.WHFast.C72_masses", "Posidonius.WHFast.C72_gravity"], "note": "Proved exactly for democratic heliocentric coordinates and WHDS and for the first planet in Jacobi coordinates. For further planets in Jacobi coordinates the kick adds back a softened attraction (1e-12), so the sum is off by at most 1.5e-12/r^2 relative to it (C72_violated_jacobi, bound in C72_softening_partial)."},
 {"property": "C73", "status": "partial", "theorems": ["Posidonius.WHFast.C73_quadruple", "Posidonius.WHFast.C73_scaling", "Posidonius.WHFast.C73_gFunctions", "Posidonius.WHFast.C73_reduction", "Posidonius.WHFast.C73_series", "Posidonius.WHFast.C73_accuracy", "Posidonius.WHFast.C73_hyperbolic", "Posidonius.WHFast.C73_violated_infinite"], "note": "Quadrupling and scaling are exact; the functions of the code are accurate for elliptic (absolute) and hyperbolic arguments (relative, C73_hyperbolic) up to 1e13. An infinite argument never ends (C73_violated_infinite)."},
 {"property": "C74", "status": "partial", "theorems": ["Posidonius.WHFast.C74_ends", "Posidonius.WHFast.C74_violated_nan"], "note": "Proved for positive time steps, positive mass and non-zero angular momentum in exact arithmetic. Violated for a NaN coordinate: the solver never ends (C74_violated_nan)."},
 {"property": "C75", "status": "proved", "theorems": ["Posidonius.WHFast.C75_momentum", "Posidonius.WHFast.C75_forced", "Posidonius.WHFast.C75_iteration", "Posidonius.WHFast.C75_iterations"], "note": ""},
 {"property": "C76", "status": "proved", "theorems": ["Posidonius.Ias15.C76_collocation", "Posidonius.Ias15.C76_interpolates", "Posidonius.Ias15.C76_step", "Posidonius.Ias15.C76_tablesOf", "Posidonius.Ias15.C76_literals"], "note": ""},
 {"property": "C77", "status": "proved", "theorems": ["Posidonius.Ias15.C77_momentum"], "note": "Exact arithmetic. The forces are any evaluation without net force; the state starts without predicted accelerations, as the integrator is constructed."},
 {"property": "C78", "status": "proved", "theorems": ["Posidonius.Ias15.C78_radau", "Posidonius.Ias15.C78_order", "Posidonius.Ias15.C78_order_position", "Posidonius.Ias15.C78_step"], "note": ""},
 {"property": "C79", "status": "partial", "theorems": ["Posidonius.Ias15.C79_above", "Posidonius.Ias15.C79_accuracy_partial", "Posidonius.Ias15.C79_violated_large", "Posidonius.Ias15.C79_estimate_partial", "Posidonius.Ias15.C79_violated_torque"], "note": "Violated: sqrt7 is wrong for large arguments (C79_violated_large) and the largest torque is compared with the wrong variable (C79_violated_torque). Proved: sqrt7 never below the root, accurate on [1/10, 2]; the estimate without spins."},
 {"property": "C80", "status": "partial", "theorems": ["Posidonius.Creep.C80_second", "Posidonius.Creep.C80_zeroth_partial", "Posidonius.Creep.C80_violated"], "note": "E_(2,k) right; two signs wrong in E_(0,k) (C80_violated)"},
 {"property": "C81", "status": "partial", "theorems": ["Posidonius.Creep.C81_equatorial", "Posidonius.Creep.C81_creep", "Posidonius.Creep.C81_polar_partial", "Posidonius.Creep.C81_violated", "Posidonius.Creep.C81_fast", "Posidonius.Creep.C81_slow_partial"], "note": "Equatorial part proved; the polar part lacks the lagging terms (C81_violated); slow rotation to first order in e"},
 {"property": "C82", "status": "partial", "theorems": ["Posidonius.Creep.C82_gradient", "Posidonius.Creep.C82_torque", "Posidonius.Creep.C82_violated", "Posidonius.Creep.C82_flattening_fast", "Posidonius.Creep.C82_flattening_slow", "Posidonius.Creep.C82_flattening_torque", "Posidonius.Creep.C82_flattening_gradient", "Posidonius.Creep.C82_viscosity"], "note": "Companion side proved; the torque on the host has no counterpart in the force (C82_violated)"},
 {"property": "C83", "status": "partial", "theorems": ["Posidonius.Kaula.C83_g30", "Posidonius.Kaula.C83_g21", "Posidonius.Kaula.C83_g20_partial", "Posidonius.Kaula.C83_violated_g20", "Posidonius.Kaula.C83_g31_partial", "Posidonius.Kaula.C83_violated_g31", "Posidonius.Kaula.C83_g33", "Posidonius.Kaula.C83_violated_conjugate"], "note": "G_21q and G_30q are right through order seven; G_20q after a change of one entry, G_31q after a change of seven; as they stand these and their reflections are refuted."},
 {"property": "C84", "status": "partial", "theorems": ["Posidonius.Kaula.C84_f20", "Posidonius.Kaula.C84_f21", "Posidonius.Kaula.C84_f22", "Posidonius.Kaula.C84_violated_f30", "Posidonius.Kaula.C84_violated_f31", "Posidonius.Kaula.C84_violated_f32", "Posidonius.Kaula.C84_violated_f33"], "note": "Degree two is right for all inclinations; the four theorems about degree three are equivalences that say at which inclinations the code is right."},
 {"property": "C85", "status": "partial", "theorems": ["Posidonius.Kaula.C85_orthogonal", "Posidonius.Kaula.C85_inclined", "Posidonius.Kaula.C85_violated_planar"], "note": "No force along the orbit (C85_orthogonal); attraction in the inclined case (C85_inclined); repulsion in the planar case (C85_violated_planar)."},
 {"property": "C86", "status": "partial", "theorems": ["Posidonius.Kaula.C86_planet_mass", "Posidonius.Kaula.C86_planet_radius", "Posidonius.Kaula.C86_violated_star", "Posidonius.Kaula.C86_star_radial"], "note": "Right for the tide in a planet; wrong for the tide in the star (C86_violated_star, C86_star_radial)."},
 {"property": "C87", "status": "partial", "theorems": ["Posidonius.Kaula.C87_components", "Posidonius.Kaula.C87_exchange_partial", "Posidonius.Kaula.C87_violated_exchange", "Posidonius.Kaula.C87_star_one", "Posidonius.Kaula.C87_violated_star", "Posidonius.Kaula.C87_violated_star_witness"], "note": "Orthonormal frame (C87_components); the torque balances the moment of the force for circular planar orbits (C87_exchange_partial) and for a single companion of the star (C87_star_one); refuted for eccentric orbits and for two companions."},
 {"property": "C88", "status": "partial", "theorems": ["Posidonius.Evolution.C88_lengths", "Posidonius.Evolution.C88_covers", "Posidonius.Evolution.C88_no_extrapolation", "Posidonius.Evolution.C88_violated_empty"], "note": "Proved for every file content: one entry per time in each column looked up, and on non-empty tables no lookup of the run extrapolates. Violated for files without records, which are accepted and panic at the first lookup (C88_violated_empty)."},
 {"property": "C89", "status": "proved", "theorems": ["Posidonius.Evolution.C89_gallet", "Posidonius.Evolution.C89_bolmont", "Posidonius.Evolution.C89_leconte", "Posidonius.Evolution.C89_baraffe2015", "Posidonius.Evolution.C89_baraffe1998", "Posidonius.Evolution.C89_leconte_column", "Posidonius.Evolution.C89_leconte_consistent"], "note": "All six families of tables, for every real mass; the auxiliary column agrees with the main file."},
 {"property": "C90", "status": "partial", "theorems": ["Posidonius.Evolution.C90_rows", "Posidonius.Evolution.C90_leconte_rows", "Posidonius.Evolution.C90_leconte_range_partial", "Posidonius.Evolution.C90_violated_leconte_range", "Posidonius.Evolution.C90_age"], "note": "Proved for all models; for brown dwarfs the restriction to the range of the auxiliary file needs a main age at or above its start (C90_leconte_range_partial), otherwise violated (C90_violated_leconte_range)."},
 {"property": "C91", "status": "partial", "theorems": ["Posidonius.Evolution.C91_violated_time", "Posidonius.Evolution.C91_fields_partial"], "note": "Violated: unreadable times are read as -1 (C91_violated_time). C90_rows shows that all other needed fields are numbers in every accepted file."},
 {"property": "C92", "status": "proved", "theorems": ["Posidonius.Univ.C92_force", "Posidonius.Univ.C92_definition"], "note": ""},
 {"property": "C93", "status": "partial", "theorems": ["Posidonius.Univ.C93_host_partial", "Posidonius.Univ.C93_companion_partial"], "note": "Missing: a companion outside the regime of its own dynamical tide (the host's factor is then the equilibrium one), and factors left over from earlier evaluations; both are refuted in C61_violated."},
 {"property": "C94", "status": "proved", "theorems": ["Posidonius.Univ.C94_acceleration", "Posidonius.Univ.C94_torque", "Posidonius.Univ.C94_no_torque"], "note": ""},
 {"property": "C95", "status": "partial", "theorems": ["Posidonius.Univ.C95_partial", "Posidonius.Univ.C95_violated", "Posidonius.Univ.C95_violated_step", "Posidonius.Univ.C95_violated_half"], "note": "False: LeapFrog's first half kick of the spins lacks the relativistic torque, so spins precess at half the rate. Proved: the theorem of half the rate for all universes with only relativity on, a witness with a non-zero torque, and (partial) that the second evaluation contains it."},
 {"property": "C96", "status": "proved", "theorems": ["Posidonius.Univ.C96_step", "Posidonius.Univ.C96_midpoint", "Posidonius.Univ.C96_momentum", "Posidonius.Univ.C96_settings"], "note": ""},
 {"property": "C97", "status": "proved", "theorems": ["Posidonius.Univ.C97_settings", "Posidonius.Univ.C97_evaluation", "Posidonius.Univ.C97_momentum"], "note": ""},
 {"property": "C98", "status": "proved", "theorems": ["Posidonius.Univ.C98_settings", "Posidonius.Univ.C98_forced", "Posidonius.Univ.C98_momentum"], "note": ""},
 {"property": "C99", "status": "partial", "theorems": ["Posidonius.Univ.C99_violated_whfast", "Posidonius.Univ.C99_violated_ias15", "Posidonius.Univ.C99_leapfrog_partial", "Posidonius.Univ.C99_leapfrog_brakes_partial", "Posidonius.Univ.C99_violated"], "note": "False for IAS15 and WHFast (integrate_spin omits the wind): C99_violated_ias15, C99_violated_whfast, C99_violated. Partial: LeapFrog brakes by the rate of the wind."},
 {"property": "C100", "status": "proved", "theorems": ["Posidonius.Univ.C100_last", "Posidonius.Univ.C100_body", "Posidonius.Univ.C100_stored", "Posidonius.Univ.C100_derived", "Posidonius.Univ.C100_order", "Posidonius.Univ.C100_creep", "Posidonius.Univ.C100_refused"], "note": ""},
 {"property": "C101", "status": "proved", "theorems": ["Posidonius.Univ.C101_torques", "Posidonius.Univ.C101_leapfrog", "Posidonius.Univ.C101_ias15", "Posidonius.Univ.C101_whfast", "Posidonius.Univ.C101_start_ias15", "Posidonius.Univ.C101_clock_whfast"], "note": ""},
 {"property": "C102", "status": "partial", "theorems": ["Posidonius.Univ.C102_evaluation_partial", "Posidonius.Univ.C102_leapfrog_partial", "Posidonius.Univ.C102_newhall_partial", "Posidonius.Univ.C102_newhall_sweep", "Posidonius.Univ.C102_kidder_partial", "Posidonius.Univ.C102_violated"], "note": "False for the spin-orbit acceleration of Kidder (C102_violated), whose first term multiplies components; C102_kidder_partial gives the exact difference. C102_evaluation_partial and C102_leapfrog_partial prove it for gravity, constant time lag tides, oblate flattening, Anderson's relativity, wind, evolution, and disks for rotations about their axis. Newhall's corrections are the same in turned axes sweep by sweep (C102_newhall_sweep); their test of convergence looks at components, so C102_newhall_partial excludes components between zero and 1e-30. Creep and Kaula tides under rotations are not covered."},
 {"property": "C103", "status": "proved", "theorems": ["Posidonius.Univ.C103_evaluation", "Posidonius.Univ.C103_leapfrog"], "note": ""},
 {"property": "C104", "status": "partial", "theorems": ["Posidonius.Univ.C104_new", "Posidonius.Univ.C104_evaluation_partial", "Posidonius.Univ.C104_run_partial", "Posidonius.Univ.C104_run_first_partial", "Posidonius.Univ.C104_bodies_partial", "Posidonius.Univ.C104_violated", "Posidonius.Univ.C104_violated_stop", "Posidonius.Univ.C104_ias15_partial", "Posidonius.Univ.C104_ias15_run_partial"], "note": "Refuted for Anderson's relativity (C104_violated) and for the search for ejected bodies (C104_violated_stop); proved for the construction (one body heavier than the others), for evaluations, for any number of iterations of LeapFrog with every other combination of effects, and for any number of iterations of IAS15 without spins (C104_ias15_partial, C104_ias15_run_partial). Not covered: IAS15 with spins (false in general, C141) and WHFast; Roche radii of equal masses (C54) are a hypothesis of the statement that both runs go on."},
 {"property": "C105", "status": "proved", "theorems": ["Posidonius.Univ.C105_balance", "Posidonius.Univ.C105_loss"], "note": ""},
 {"property": "C106", "status": "proved", "theorems": ["Posidonius.Univ.C106_energy"], "note": ""},
 {"property": "C107", "status": "partial", "theorems": ["Posidonius.Univ.C107_evaluation_partial", "Posidonius.Univ.C107_newhall_partial", "Posidonius.Univ.C107_newhall_sweep", "Posidonius.Univ.C107_leapfrog_partial", "Posidonius.Univ.C107_kidder_partial", "Posidonius.Univ.C107_violated", "Posidonius.Univ.C107_violated_ejection"], "note": "Proved for all systems of units with constant time lag or creep tides, either flattening, wind, disk, Anderson's relativity, evolving bodies: an evaluation of the effects (C107_evaluation_partial) and runs of LeapFrog (C107_leapfrog_partial). Violated by Kidder's relativity, whose second order terms carry a velocity^2 and spin-orbit terms a length^3 too much (C107_violated, exact description in C107_kidder_partial), and by the fixed ejection limit (C107_violated_ejection). Newhall's corrections scale sweep by sweep (C107_newhall_sweep), and as a whole away from the limit 1e-30 of the test of convergence (C107_newhall_partial). Missing: Kaula tides."},
 {"property": "C108", "status": "proved", "theorems": ["Posidonius.WHFast.C108_returns", "Posidonius.WHFast.C108_step", "Posidonius.WHFast.C108_angular_momentum"], "note": "C108_returns with exact functions; C108_step and C108_angular_momentum give the error of the step for any anomaly. How wide a cycle of a bound orbit can be is not bounded."},
 {"property": "C109", "status": "proved", "theorems": ["Posidonius.WHFast.C109_step", "Posidonius.Univ.C109_run"], "note": "Jacobi coordinates and WHDS. In democratic heliocentric coordinates the jump remains (the splitting of that coordinate system is only approximate for two bodies)."},
 {"property": "C110", "status": "proved", "theorems": ["Posidonius.Univ.C110_symplectic"], "note": "Exact arithmetic. The families are differentiable at one parameter; the program must not stop near it."},
 {"property": "C111", "status": "proved", "theorems": ["Posidonius.Univ.C111_second_order"], "note": "Exact arithmetic. The solution is assumed to exist on an interval; the constant and the bound of the step depend on it."},
 {"property": "C112", "status": "proved", "theorems": ["Posidonius.Univ.C112_jacobi", "Posidonius.Univ.C112_hamiltonian", "Posidonius.Univ.C112_motion", "Posidonius.Univ.C112_energy", "Posidonius.Univ.C112_correction", "Posidonius.Univ.C112_first_order", "Posidonius.Univ.C112_schwarzschild"], "note": "Exact arithmetic, without ignored terms of gravity (for these see C67). The field is weak if 2 v^2 + 3 mu / r <= c^2 / 2."},
 {"property": "C113", "status": "proved", "theorems": ["Posidonius.Univ.C113_torque", "Posidonius.Univ.C113_revolution", "Posidonius.Univ.C113_equilibrium"], "note": "Tides of constant time lag; the orbit is a given Kepler ellipse, the rotation around its normal. The mean motion is Kepler's for the constants that the function uses (G_SI, M_SUN, AU, HOUR); the universe itself may use other units or a slightly different constant of gravity."},
 {"property": "C114", "status": "partial", "theorems": ["Posidonius.Univ.C114_first_order_partial", "Posidonius.Univ.C114_violated"], "note": "Violated: the angular momenta are advanced by two half steps of Euler's method. C114_violated gives a star with a saturated wind whose error is at least a fifth of the step for all steps; C114_first_order_partial proves the first order for all winds (no other torques, no records)."},
 {"property": "C115", "status": "proved", "theorems": ["Posidonius.WHFast.C115_step", "Posidonius.WHFast.C115_reversible", "Posidonius.WHFast.C115_run", "Posidonius.WHFast.C115_exact", "Posidonius.WHFast.C115_exact_run", "Posidonius.WHFast.C115_kicked", "Posidonius.Univ.C115_gravity"], "note": "The solver of the code truncates series and stops an iteration, so the exact statement is for a solver that can be reversed; C108 and C24 relate the code's solver to the exact solution. The spins and additional forces of an iteration are left out."},
 {"property": "C116", "status": "proved", "theorems": ["Posidonius.Univ.C116_work", "Posidonius.Univ.C116_torque", "Posidonius.Univ.C116_decay"], "note": "Mean work and angular momentum for both tides, any ellipse and any spins, from the accelerations of calculate_additional_effects; the sign of the work if both bodies rotate slowly."},
 {"property": "C117", "status": "proved", "theorems": ["Posidonius.Univ.C117_rate", "Posidonius.Univ.C117_eccentricity", "Posidonius.Univ.C117_pericentre"], "note": "Derivative of the eccentricity vector, its mean change along the line of apsides (Hut) and across it (Sterne) for two bodies."},
 {"property": "C118", "status": "partial", "theorems": ["Posidonius.Univ.C118_kidder_partial", "Posidonius.Univ.C118_eccentricity", "Posidonius.Univ.C118_published", "Posidonius.Univ.C118_violated", "Posidonius.Univ.C118_anderson_partial", "Posidonius.Univ.C118_anderson_limit", "Posidonius.Univ.C118_anderson_einstein"], "note": "The turn and the unchanged eccentricity are proved for Kidder's corrections without rotation and for Anderson's to the first order. Neither turn is the published one: Kidder's exceeds it by more than the factor 1 + mi/M (C118_violated), Anderson's is below Einstein's unless the companion has no mass (C118_anderson_einstein)."},
 {"property": "C119", "status": "proved", "theorems": ["Posidonius.Univ.C119_work", "Posidonius.Univ.C119_torque", "Posidonius.Univ.C119_eccentricity", "Posidonius.Univ.C119_pericentre", "Posidonius.Univ.C119_tilt", "Posidonius.Univ.C119_node"], "note": "Work, torque in all directions, all three components of the change of the eccentricity vector, and the node for a companion that rotates upright."},
 {"property": "C120", "status": "partial", "theorems": ["Posidonius.Univ.C120_rate_partial", "Posidonius.Univ.C120_circular_partial", "Posidonius.Univ.C120_violated", "Posidonius.Univ.C120_work_partial", "Posidonius.Univ.C120_eccentricity_partial", "Posidonius.Univ.C120_pericentre_partial"], "note": "Violated: a circular orbit in the plane of the disk migrates at 2 (1 + m/M) times the intended speed (C120_circular_partial, C120_violated). The rates that the code does produce are proved for all bound orbits (C120_rate_partial) and averaged over a revolution for any eccentricity in a dense disk (C120_work_partial, C120_eccentricity_partial, C120_pericentre_partial)."},
 {"property": "C121", "status": "proved", "theorems": ["Posidonius.WHFast.C121_second_order", "Posidonius.WHFast.C121_steps", "Posidonius.WHFast.C121_code", "Posidonius.WHFast.C121_exact"], "note": "Democratic heliocentric and WHDS coordinates. C121_second_order: any solver accurate to a tolerance; C121_code: the code's steps where its Kepler solver was accurate to the tolerance; C121_exact: exact two-body motion. The two-body solver of the code itself is treated in C24."},
 {"property": "C122", "status": "proved", "theorems": ["Posidonius.WHFast.C122_symplectic", "Posidonius.WHFast.C122_exact", "Posidonius.WHFast.C122_code"], "note": "All three coordinates. C122_symplectic: any symplectic solver of the two-body problem; C122_exact: exact two-body motion is symplectic (as the flow of Kepler's equations, through differentiability of flows in their starts); C122_code: the code, as far as its Kepler solver gave exact answers. In Jacobi coordinates the kick keeps the form although its indirect term is softened (which costs convergence, see C72)."},
 {"property": "C123", "status": "partial", "theorems": ["Posidonius.Univ.C123_partial", "Posidonius.Univ.C123_partial_file", "Posidonius.Univ.C123_particle", "Posidonius.Univ.C123_partial_real", "Posidonius.Univ.C123_violated_eleven", "Posidonius.Univ.C123_violated_hosts", "Posidonius.Univ.C123_violated_unused", "Posidonius.Univ.C123_violated_massless", "Posidonius.Univ.C123_violated_disk"], "note": "Proved in both directions, in any arithmetic, when the running sums of the masses are positive, disks have edges and evolving bodies are prepared from the tables as in the library (C124); particles over the reals. Violated: eleven particles, different hosts of tides and flattening, two central bodies of an effect that is not considered, a first particle without mass, disks without edges. Missing: JSON text."},
 {"property": "C124", "status": "partial", "theorems": ["Posidonius.Univ.C124_partial", "Posidonius.Univ.C124_prepares", "Posidonius.Univ.C124_partial_case", "Posidonius.Univ.C124_partial_leconte", "Posidonius.Univ.C124_violated_limit", "Posidonius.Univ.C124_violated_short", "Posidonius.Univ.C124_violated_mass", "Posidonius.Univ.C124_violated_spline", "Posidonius.Univ.C124_violated_header"], "note": "Proved: whatever the front end writes for a body other than Leconte2011, with the expected first line of the file, are the tables of Evolver::new, which fails only if they end before the time limit; the sizes at the start agree and the case file describes the universe of the constructor (with C123); for Leconte2011 the times and radii agree (C124_partial_leconte). Violated: end of the tables is compared with the initial time instead of the limit (both directions), 1.5 solar masses of BolmontMathis2016 missing, B-spline for Leconte2011, dropped first line of Baraffe2015."},
 {"property": "C125", "status": "partial", "theorems": ["Posidonius.Tools.C125_partial", "Posidonius.Tools.C125_partial_planar", "Posidonius.Tools.C125_violated_node", "Posidonius.Tools.C125_violated_circular", "Posidonius.Tools.C125_violated_hyperbola", "Posidonius.Tools.C125_partial_hyperbola", "Posidonius.Tools.C125_partial_parabola", "Posidonius.Tools.C125_violated_parabola", "Posidonius.Tools.C125_violated_retrograde", "Posidonius.Tools.C125_violated_bodies"], "note": "Proved for inclined ellipses, ellipses in the reference plane, outgoing hyperbolas, and the shape and orientation of parabolas. Violated: node on the x axis (longitude of the projected perihelion), circular inclined orbits (mean anomaly from the x axis, perihelion at the node), retrograde orbits in the reference plane (mirrored perihelion), parabolas (mean anomaly always zero), incoming hyperbolas, central bodies away from the origin."},
 {"property": "C126", "status": "partial", "theorems": ["Posidonius.Tools.C126_partial", "Posidonius.Tools.C126_partial_bodies", "Posidonius.Tools.C126_violated_bodies", "Posidonius.Tools.C126_violated_parabola", "Posidonius.Tools.C126_violated_hyperbola", "Posidonius.Tools.C126_partial_hyperbola"], "note": "Proved for ellipses about one body (also: same place as the library) and hyperbolas away from the perihelion. Violated: several central bodies (orbit too small by the distance of their centre of mass from the origin; the exact orbit, and that the elements computed back are nevertheless the requested ones, is proved), parabolas and hyperbolas near the perihelion (exceptions)."},
 {"property": "C127", "status": "partial", "theorems": ["Posidonius.CaseJson.C127_partial", "Posidonius.CaseJson.C127_exactly", "Posidonius.CaseJson.C127_library_partial", "Posidonius.CaseJson.C127_violated_bodies", "Posidonius.CaseJson.C127_violated_kaula", "Posidonius.CaseJson.C127_violated_number", "Posidonius.CaseJson.C127_violated_flags"], "note": "Violated by eleven bodies, Kaula tables of another length, non-finite numbers and flags given as 1. Proved: all other cases of the front end are read, as the chosen integrator with exactly the state of the case; the condition is exact (C127_exactly). Universes built by the front end's library meet the condition on the state (C127_library_partial)."},
 {"property": "C128", "status": "proved", "theorems": ["Posidonius.Analysis.C128_average", "Posidonius.Analysis.C128_exactly", "Posidonius.Analysis.C128_evenly", "Posidonius.Analysis.C128_nonneg", "Posidonius.Analysis.C128_zero"], "note": "Heat per revolution against the formula in general (C128_average), when they are equal (C128_exactly), mean over the positions of the equator (C128_evenly), sign and zero (C128_nonneg, C128_zero)."},
 {"property": "C129", "status": "partial", "theorems": ["Posidonius.Analysis.C129_partial", "Posidonius.Analysis.C129_coordinates", "Posidonius.Analysis.C129_violated_reference", "Posidonius.Analysis.C129_exactly", "Posidonius.Analysis.C129_violated"], "note": "Violated: proved for one planet (C129_partial, C129_coordinates); what is computed for more in C129_exactly; C129_violated and C129_violated_reference show wrong elements and a missing body."},
 {"property": "C130", "status": "partial", "theorems": ["Posidonius.Analysis.C130_obliquity", "Posidonius.Analysis.C130_violated_precession", "Posidonius.Analysis.C130_corotation", "Posidonius.Analysis.C130_period", "Posidonius.Analysis.C130_violated_pseudo", "Posidonius.Analysis.C130_pseudo_partial", "Posidonius.Analysis.C130_violated_flux", "Posidonius.Analysis.C130_momentum"], "note": "Violated: precession angle, pseudo-synchronization period of eccentric orbits and mean tidal flux are wrong (C130_violated_*); the other quantities are proved."},
 {"property": "C131", "status": "partial", "theorems": ["Posidonius.Analysis.C131_angles", "Posidonius.Analysis.C131_rotation", "Posidonius.Analysis.C131_violated_node", "Posidonius.Analysis.C131_apsides", "Posidonius.Analysis.C131_violated_libration", "Posidonius.Analysis.C131_proposed", "Posidonius.Analysis.C131_nominal", "Posidonius.Analysis.C131_violated_numerator", "Posidonius.Analysis.C131_violated_missed", "Posidonius.Analysis.C131_shape"], "note": "Violated: node and argument of the perihelion, missed resonances and libration opposite to the centre (C131_violated_*); the rest is proved."},
 {"property": "C132", "status": "partial", "theorems": ["Posidonius.Constants.C132_units", "Posidonius.Constants.C132_same", "Posidonius.Constants.C132_violated_sun", "Posidonius.Constants.C132_period", "Posidonius.Constants.C132_violated_periods", "Posidonius.Constants.C132_violated_year", "Posidonius.Constants.C132_violated_hydrogen"], "note": "Units and agreement of both programs proved. Violated: the mass of the Sun is too small by 0.33 percent against the cited IAU 2009 value, so that all orbits take 0.17 percent too long (a year of 365.87 days), and the mass of the hydrogen atom is not that of CODATA."},
 {"property": "C133", "status": "partial", "theorems": ["Posidonius.Tools.Py.C133_units", "Posidonius.Tools.Py.C133_positive", "Posidonius.Tools.Py.C133_grows_partial", "Posidonius.Tools.Py.C133_violated_grows", "Posidonius.Tools.Py.C133_violated_asteroid", "Posidonius.Tools.Py.C133_earth", "Posidonius.Tools.Py.C133_same", "Posidonius.Tools.Py.C133_cosine"], "note": "Positivity, independence of the unit, the radius of the Earth, agreement of rotations, periods and cosine interpolation with the library proved; growth with the mass proved from one hundredth of the mass of the Earth. Violated below one thousandth, where lighter planets are larger."},
 {"property": "C134", "status": "proved", "theorems": ["Posidonius.Json.C134_same", "Posidonius.Json.C134_canonical", "Posidonius.Json.C134_twice", "Posidonius.Json.C134_repeated"], "note": "Python keeps the last of repeated keys where the simulator rejects the file (C134_repeated); case files written by front end or simulator have none."},
 {"property": "C135", "status": "partial", "theorems": ["Posidonius.Analysis.C135_found", "Posidonius.Analysis.C135_complete", "Posidonius.Analysis.C135_test", "Posidonius.Analysis.C135_partial", "Posidonius.Analysis.C135_partial_order", "Posidonius.Analysis.C135_violated_long", "Posidonius.Analysis.C135_ends", "Posidonius.Analysis.C135_violated_partner"], "note": "Detections are exactly those of neighbouring planets whose last fifteen samples pass the test (C135_found, C135_complete, C135_test; completeness for distinct distances), they are joined to runs (C135_partial), ranges are ordered, disjoint and within the history (C135_partial_order), and the script ends normally up to 500 samples (C135_ends). Violated: longer histories always end with an exception (C135_violated_long), and an entry may name a planet that is not the neighbour any more (C135_violated_partner). The figure is not modelled."},
 {"property": "C136", "status": "proved", "theorems": ["Posidonius.Analysis.C136_place", "Posidonius.Analysis.C136_once"], "note": "C136_place for distances without ties, C136_once in general."},
 {"property": "C137", "status": "proved", "theorems": ["Posidonius.Univ.C137_kick", "Posidonius.Univ.C137_step", "Posidonius.Univ.C137_run", "Posidonius.Univ.C137_order"], "note": "The accuracy of the solver of Kepler's equation is a hypothesis of C137_order (see C74, C108); convergence in Jacobi coordinates is not proved."},
 {"property": "C138", "status": "proved", "theorems": ["Posidonius.Output.C138_files"], "note": "C138_files: for every history of n bodies, cut anywhere after the first snapshot, the script writes n files whose 19 columns hold the quantities of their names, line by line of the whole snapshots. The text of the numbers is not modelled."},
 {"property": "C139", "status": "partial", "theorems": ["Posidonius.Analysis.C139_figure", "Posidonius.Analysis.C139_tested", "Posidonius.Analysis.C139_rejects", "Posidonius.Analysis.C139_violated_zero", "Posidonius.Analysis.C139_violated_same"], "note": "Violated for planet number 0 (C139_violated_zero: the last planet is taken) and for equal numbers (C139_violated_same: accepted, or IndexError for the last planet). For planets that exist and are in order C139_figure gives ratio, difference of perihelia, angles and room; C139_tested identifies the angles with those of the test; C139_rejects the refused inputs."},
 {"property": "C140", "status": "partial", "theorems": ["Posidonius.Tools.C140_angle", "Posidonius.Tools.C140_cosine", "Posidonius.Tools.C140_exactly", "Posidonius.Tools.C140_positive_partial", "Posidonius.Tools.C140_half_partial", "Posidonius.Tools.C140_violated"], "note": "Reduced angle and cosine for all angles; the sine for angles from -pi on (C140_positive_partial, C140_half_partial), and for all angles exactly when it is wrong (C140_exactly). Violated: angles that are not positive are reduced by two turns, and in the third half turn the sign is wrong (C140_violated)."},
 {"property": "C141", "status": "partial", "theorems": ["Posidonius.Ias15.C141_sweeps", "Posidonius.Ias15.C141_attempt_partial", "Posidonius.Ias15.C141_iterate_partial", "Posidonius.Ias15.C141_violated"], "note": "The sweeps for all cases (C141_sweeps); attempts and steps without spins (C141_attempt_partial, C141_iterate_partial). Violated with spins: the estimated error depends on the order, because torques are compared with the largest acceleration (C141_violated)."},
 {"property": "C142", "status": "partial", "theorems": ["Posidonius.Ias15.C142_error_partial", "Posidonius.Ias15.C142_attempt_partial", "Posidonius.Ias15.C142_iterate_partial", "Posidonius.Ias15.C142_violated", "Posidonius.Univ.C142_universe_partial", "Posidonius.Univ.C142_run_partial"], "note": "Without spins, or with spins if accelerations and torques change by the same factor: errors, attempts and steps (C142_error_partial, C142_attempt_partial, C142_iterate_partial); runs of IAS15 with gravity and all effects of C107_evaluation_partial in other units of time and mass (C142_universe_partial, C142_run_partial). Missing: the unit of length for whole runs (limit for ejected bodies, C107_violated_ejection). Violated with spins in other units: accelerations and torques are compared with each other (C142_violated)."},
 {"property": "C143", "status": "partial", "theorems": ["Posidonius.Ias15.C143_sweeps", "Posidonius.Ias15.C143_attempt_partial", "Posidonius.Ias15.C143_violated", "Posidonius.Univ.C143_universe_partial"], "note": "Sweeps for all observers (C143_sweeps); attempts if the same particles count as slow for both (C143_attempt_partial), also with gravity and all effects (C143_universe_partial). Violated: particles far from the origin are left out of the estimate of the error (C143_violated)."},
 {"property": "C144", "status": "proved", "theorems": ["Posidonius.WHFast.C144_units", "Posidonius.WHFast.C144_axes"], "note": "Exact, for all fuel, orbits and time steps: also a step that does not end within the fuel is the same in other units."},
 {"property": "C145", "status": "partial", "theorems": ["Posidonius.Univ.C145_universe_partial", "Posidonius.Univ.C145_universe_run_partial", "Posidonius.WHFast.C145_step_partial", "Posidonius.WHFast.C145_gravity_partial", "Posidonius.WHFast.C145_run_partial", "Posidonius.WHFast.C145_violated"], "note": "Democratic heliocentric coordinates and WHDS in all units and for all axes, Jacobi coordinates in all units of time and for all axes (C145_step_partial, with Newton's gravity C145_gravity_partial, any number of steps C145_run_partial, iterations and runs of a universe without other effects C145_universe_partial, C145_universe_run_partial). Violated: the kicks of Jacobi coordinates soften distances by a fixed number (C145_violated)."},
 {"property": "C146", "status": "proved", "theorems": ["Posidonius.Univ.C146_universe", "Posidonius.Univ.C146_universe_run", "Posidonius.WHFast.C146_step", "Posidonius.WHFast.C146_gravity", "Posidonius.WHFast.C146_run"], "note": "Exact, for systems of bodies with positive masses; accelerations that are the same for both observers (C146_step), with Newton's gravity (C146_gravity), over any number of steps (C146_run), and for iterations and runs of a universe without other effects (C146_universe, C146_universe_run)."},
 {"property": "C147", "status": "proved", "theorems": ["Posidonius.WHFast.C147_step", "Posidonius.WHFast.C147_gravity", "Posidonius.WHFast.C147_run"], "note": "Exact, for democratic heliocentric coordinates and WHDS (not for Jacobi coordinates, in which a planet is seen from the centre of mass of those listed before). Any accelerations that are the same planet by planet (C147_step), Newton's gravity (C147_gravity), any number of steps (C147_run)."}
]}
