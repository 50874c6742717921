# Formal model of posidonius: design

Target: the Rust crate in /repo (pinned commit), plus `posidonius/analysis/history.py` (the
reader of history files).  Everything is in Lean 4 (v4.33.0) with Mathlib.

## Layout

* `lean/Verif/Model/*`  - the model: total, computable functions (generic in the scalar type),
  one per Rust function; each cites file and lines and states its simplifications.
* `lean/Verif/Spec/*`   - small specifications that do not mention the model's helpers.
* `lean/Verif/Lemmas/*` - auxiliary lemmas.
* `lean/Verif/Props/*`  - the property theorems (`C01_...`, `C02_...`), each followed by an
  `example` that instantiates its hypotheses.
* `properties.jsonl`, `MANIFEST.json`, `seeded/LOG.jsonl` - the list of properties, what is proved
  for each, and the mutation tests of the theorems.

## Trusted base

* Lean's kernel.  No axioms are added; no `sorry`, `admit`, `native_decide`, `bv_decide`.
  Theorems depend at most on `propext`, `Classical.choice`, `Quot.sound`.
* That the model says what the Rust code says.  The link is by reading: every definition cites the
  lines it transcribes.  Nothing was compiled or executed.
* Floating point.  Scalars are an abstract type `F` with operations (`Verif/Model/Scalar.lean`).
  Three readings are used:
  1. **any** operations at all (control flow, bookkeeping, serialization): such theorems hold for
     IEEE f64 including NaN, because no law of arithmetic is used;
  2. real numbers (algebraic identities, conservation laws, bounds): rounding is *not* modelled;
     these are theorems about the formulas of the code in exact arithmetic;
  3. `XQ`: exact rationals with the IEEE special values +inf, -inf, NaN and the IEEE rules for
     them (0/0, inf-inf, 0*inf, comparisons with NaN are false).  Used for the findings about NaN.
     One zero only (no -0), no rounding, no overflow; square roots exact on perfect squares.
  The elementary functions (`sin`, `acos`, `atan2`, `powf`, ...) are further operations of `F`; over the
  reals they are Mathlib's (`atan2 y x` is the argument of `x + iy`).
* I/O.  A crash is the death of the process: bytes handed to the operating system survive, bytes in
  a `BufWriter` are lost, from any point of the program.  Power failures / missing `fsync` are out
  of scope.  `BufWriter` is modelled as an adversary that may push any prefix of its buffer at any
  time.  bincode is modelled as fixed-width little-endian for f64/i32 in a tuple.  JSON text, clap
  and serde are modelled only as far as stated in the individual definitions.

## What is not modelled

* Floating-point rounding in the algebraic theorems (see above).
* Printing, wall-clock time (an oracle in the driver model), `DefaultHasher` (an arbitrary function).
* The lexical part of reading the evolution tables (splitting CSV text into fields, parsing of numbers).
* Of the Python code only the history reader and the construction of a case (`Model/FrontEnd`, without evolving bodies and
  without the JSON text) are modelled.
* Benchmarks and tests.

## Properties: model and method

| id | model | method |
|----|-------|--------|
| C01 | `Model/Output`: two tuples per particle, little endian bytes | length lemma, induction over snapshots |
| C02 | `Model/Output`, `Model/Reader` | round trip law: decode (encode xs) = xs, induction |
| C03 | same, with an arbitrary prefix of the file | arithmetic on the cut position + round trip |
| C04 | `Model/Driver`: `iterate` of the three integrators over an arbitrary universe/step | simulation relation ignoring the recovery bookkeeping |
| C05 | `Model/Disk`: process + files as a transition system with crash/resume | invariant by induction over all executions; refinement to the uninterrupted run |
| C06 | same | invariant |
| C07 | same; the code renames the old file before writing the new one | false: witness execution; partial: the backup or the file is complete at every point |
| C08, C09, C10 | `Model/Driver` clock and triggers, exact arithmetic (order laws) | induction over iterations; closed form of the schedule |
| C11 | clock | induction, floor; arbitrary-arithmetic version of the bound |
| C12 | driver + disk | false: witness; partial: what is saved last |
| C13, C14 | decision logic of the setters | case analysis; invariant over sequences of changes |
| C15 | clap's typed access (declared type must equal requested type, else panic) | false for every value; partial: without the option |
| C16 | main loop | false: witness; partial without limit |
| C17 | `main` on an abstract file system | case analysis |
| C18 | field-set model of serde_json derive | subset reasoning for all values |
| C19, C20 | `Model/Gravity` | pair sums, induction over lists / Finset sums |
| C21, C22 | `Model/Leapfrog` | induction over steps |
| C23, C25, C70, C71 | `Model/WHFast` coordinates, jump, kick, step | induction over bodies with running sums; `Lemmas/WHFast`, `Lemmas/WHFastSteps` |
| C72 | the same with gravity of all bodies | sums over the bodies |
| C24 | `Model/WHFast` Kepler step | G functions characterised by their differential equations; derivative along the anomaly |
| C73 | `Model/WHFast` Stumpff functions | power series, double angle formulas, error propagation |
| C74 | `Model/WHFast` solver loops | halving of the bracket; NaN by induction on the fuel |
| C26, C27 | `Model/Interp` | induction over the table |
| C28, C29 | `Model/Evolver` cache | invariant over query sequences; C29 is false: witness |
| C30 | evolver + particle update | false: the store is on a copy; witness for every input |
| C31 | `Model/Tools` modulus | floor arithmetic |
| C32 | Kepler solvers' final/closed parts | parabola and circle proved; ellipses with e ≤ 1/10 and M ≥ 0 up to e⁵/50; hyperbola low-N branch and negative anomalies refuted |
| C56-C59 | `Model/Tools` | rotations of an orthonormal frame, vector algebra, Mathlib's trigonometry |
| C60 | `Model/Evolver` spin dependent part | case analysis over the models of evolution |
| C33-C35 | `Model/Particle`, `Model/Tides` (constant time lag, common.rs), `Model/Universe` (a whole evaluation) | frame lemmas for every effect, vector algebra; C34 and C35 refuted for spins that are not up to date |
| C36 | same over `XQ` | false: witness and general NaN theorem; partial |
| C37 | map of pair-dependent factors | key injectivity, operations as a map |
| C61 | the caller of C37 | the caller uses a wrong key: false for every body that leaves the regime |
| C62 | `Model/Universe` | case analysis over all effects |
| C38, C39, C63 | `Model/Flattening` | frame lemmas, vector algebra; zero spin refuted over `XQ`; derivative of the potential |
| C40, C64 | `Model/Gr` (Kidder) | frame lemmas, vector algebra; published formulas stated independently, refuted by witnesses |
| C65 | `Model/Gr` (Anderson) | induction over the loops to and from Jacobi coordinates |
| C66 | `Model/Gr` (Newhall) | sweep = Einstein-Infeld-Hoffmann sum; the end of the iteration refuted |
| C67 | `Model/Gr` (Newtonian accelerations) | induction over the loop; refuted for a host away from the origin |
| C41 | `Model/WindDisk` | frame lemmas; Alibert et al. damping stated independently; continuity by `min` |
| C42, C43, C69 | `Model/Config` | induction over the particle list; stages of `Universe::new` |
| C44, C68 | `Model/Universe`, `Model/Config` | componentwise algebra, sums over the bodies |
| C55 | `leapfrogIterate`, `ias15Iterate`, `whfastIterate` with and without a record | every function of the model commutes with replacing the stored heating; iterations depend on the hidden state by the first evaluation (`Lemmas/Follow`) |
| C45 | `Model/Gravity` with panics as error values | case analysis; ejection check refuted when the most massive body is not listed first |
| C46, C47, C48 | `Model/Ias15` | polynomial identities, control-flow lemmas; termination by a lower bound of the step |
| C76 | `Model/Ias15` substeps, sweeps | Newton interpolation as invariant; the constants checked by interval arithmetic over the rationals |
| C77 | the same | every operation is linear in the particles, so the weighted sum behaves as one free body |
| C78 | `Model/Ias15` finish of the step | moments of the nodal polynomial; polynomial division |
| C79 | `Model/Ias15` sqrt7, estimate | Newton's iteration for the root; refuted for large factors |
| C51 | `Model/Creep` anomalyLoop, trueAnomaly | contraction; distance to the unique solution of Kepler's equation; half angle formula |
| C80 | `Model/Creep` cayley0, cayley2 | `Spec/Hansen`, jets with Laurent polynomials in exp(iE) (`Lemmas/Jet`, `Lemmas/Hansen`); E_(0,k) refuted |
| C81 | `Model/Creep` particleShape | creep equation in the frame of the body; polar part refuted; slow rotation to first order |
| C82 | `Model/Creep` force, torques, flattening | MacCullagh's formula (`Spec/Ellipsoid`); torque on the host refuted |
| C50 | `Model/Ias15`, `Model/Midpoint` | arbitrary rounding of the main sum |
| C49 | `Model/Midpoint` (whfast.rs 321-466) | loop bound for arbitrary forces; iterates of the midpoint map |
| C75 | `Model/WHFastIterate` (whfast.rs 264-295) | sums over the bodies, induction on the iterations |
| C51 | `Model/Creep` anomaly loop | contraction, hence termination |
| C52 | `Model/Kaula` binary search, Love number | invariant of the search; interpolation; refuted at zero, for padded tables and NaN |
| C53 | `Model/Kaula` planar sums | limit of the eccentric sums; circular radial branch refuted |
| C83 | `Model/Kaula` eccentricity functions | `Spec/Hansen`, jets as for C80 |
| C84 | `Model/Kaula` inclination functions | `Spec/Inclination` (formula of Rodrigues); degree three refuted outside special inclinations |
| C85 | `Model/Kaula` components | double sums of cosines are squares; planar sign refuted |
| C86 | `Model/Kaula` factors | scaling; refuted for the star |
| C87 | `Model/Kaula` projection, torque | orthonormal frame; refuted for two companions and for eccentric orbits |
| C88 | `Model/EvolverLoad` (`Evolver::new`) | aligned columns by induction over the records, C28 for the lookups; refuted for empty files |
| C89 | `Model/EvolverLoad` windows of masses | disjoint intervals, equivalence with the grid of masses |
| C90 | `Model/EvolverLoad` records | induction over the records, invariance of the interpolation under shifts |
| C91 | `Model/EvolverLoad` parsing | refuted: an unreadable time is read as -1 |
| C92 | `Model/Tides` (constant time lag) inside an evaluation | force as the gradient of an energy plus its change over a time lag, determined by uniqueness of derivatives |
| C93 | `Model/Tides` (`pairFactors`) inside an evaluation | induction over the bodies with an invariant of the table; the disagreement is that of C61 |
| C94 | `Model/Universe` (`calculateAdditionalEffects`) for all switches | frame lemmas of all stages (erasers), decomposition of the evaluation |
| C95 | same inside `Model/LeapfrogUniverse` | false: general theorem (half the rate) and a witness; partial: the second evaluation of the step |
| C96 | `Model/LeapfrogUniverse` (`leapfrogStep`) | frame lemmas; balance of forces of C19, C55-C64; induction over steps |
| C97 | `Model/Integrators` (`ias15Iterate`: `Model/Ias15` with the evaluator of the whole universe) | an evaluator guarded by an invariant (`Lemmas/Ias15Guard`), C77, C94; induction over iterations |
| C98 | `Model/Integrators` (`whfastIterate`: the midpoint iteration and `Model/WHFast`) | the same for the midpoint iteration (`Lemmas/MidpointGuard`), C75, C72-C74; induction over iterations |
| C99 | all three integrators with a wind | false for IAS15 and WHFast: general theorems and a witness; partial: LeapFrog |
| C100 | `Model/Builder` (`Particle::new`, setters, viscosity check) | commuting assignments, induction over the calls |
| C101 | `newUniverse` followed by iterations of `leapfrogStep`, `ias15Iterate`, `whfastIterate` | C42, C43 give the hypotheses of C96-C98; induction over iterations |
| C102 | `calculateAdditionalEffects`, `leapfrogIterate` seen by an `Observer` (turned axes, place, uniform motion) | every stage commutes with the observer (`Lemmas/Observer*`), induction over iterations; false for Kidder's spin-orbit term |
| C103 | the same with the axes kept | as C102; Newhall only at rest, creep and Kaula tides by the coordinates they read |
| C104 | `newUniverse`, `calculateAdditionalEffects`, `leapfrogIterate` for a permutation of the bodies | every stage commutes with the permutation (`Lemmas/Relist*`: sums and tables of commuting updates), induction over iterations (`Props/RelistIas15` for IAS15 without spins, on C141); false for Anderson's relativity and for the search for ejected bodies |
| C105 | `calculateAdditionalEffects`, `denergyDt`, constant time lag tides | the force of C92 is dotted with velocity and spin; resultants of C33/C34 move everything to the frame of the host; the reported heat by C35; the sign by sums of squares |
| C106 | `calculateAdditionalEffects`, oblate spheroids | derivative of the quadrupole potentials in positions and spins; triple products vanish only after summing over the companions |
| C107 | `calculateAdditionalEffects`, `leapfrogIterate` in other `Units`; `Units.sees` states the dimension of every field | every stage commutes with the conversion (`Lemmas/Units*`), induction over iterations; false for Kidder's second order and spin-orbit terms |
| C108 | `Model/WHFast` Kepler solver | cycles of maps that move towards the root change sides; convexity of the distance excludes cycles of Newton's method for unbound orbits; conserved quantity `eta^2 = 2 mu r - beta r^2 - h^2` for the bracket; loop invariant of the bisection |
| C109 | `Model/Integrators` WHFast, two bodies | induction over iterations; single planet in alternative coordinates |
| C110 | `leapfrogIterate` without other forces | derivative of Newton's accelerations is symmetric for pairs; induction over iterations |
| C111 | `leapfrogRun` without other forces, near a solution of Newton's equations | Taylor expansion of the solution, Lipschitz bound on a compact neighbourhood, induction over the steps |
| C112 | `Model/Gr` Anderson | loop invariants of both transformations; contraction of the iteration for the momentum; derivative of the Hamiltonian; limit for a great speed of light |
| C113 | `Model/Tools`, `Model/Tides` | torque of an evaluation in closed form; true anomaly as function of the eccentric one; explicit integrals of the torque along the orbit |
| C114 | `Model/LeapfrogUniverse` | violated: the two half steps for spins are steps of Euler; error of first order from below for a star with a wind and from above for all winds |
| C115 | `Model/WHFastIterate`, `Spec/WHFastReverse` | the step of the code as a relation with the solver as a parameter; reversal of any number of steps for any solver that can be reversed; the exact solution is one; gravity of the universe depends on positions only |
| C116 | `Spec/Ellipse`, `Model/Tides`, `Model/Universe` | change of variable from time to true anomaly; means of polynomials in the cosine; the tidal force of C33 decomposed in the frame of the ellipse; Hut's f1, f2, f5 as the coefficients that come out |
| C117 | `Spec/Ellipse`, `Model/Tides`, `Model/Universe` | derivative of the eccentricity vector; components along and across the line of apsides averaged as in C116 |
| C118 | `Spec/Ellipse`, `Model/Gr`, `Model/Universe` | C64 and C112 give the relative acceleration along the ellipse; averaged as in C116; comparison of the angles |
| C119 | `Spec/Ellipse`, `Model/Flattening`, `Model/Universe` | the gradient of C63 as a force along the ellipse; averaged as in C116 for any direction of the axes |
| C120 | `Model/WindDisk`, `Model/Universe`, `Spec/Ellipse` | the acceleration of C41 with the recoil of the host in the derivative of the vis-viva equation; averages over the eccentric anomaly for a dense disk |
| C121 | `Model/WHFast`, `Model/WHFastIterate`, `Spec/WHFastReverse`, `Spec/WHFastAccurate` | steps of C115 as a composition of flows that are exact up to a tolerance; Taylor expansion of the composition (`Lemmas/Splitting`, `Lemmas/Strang`) and a discrete Grönwall argument; the code's solver where it is accurate |
| C122 | `Model/WHFast`, `Model/WHFastIterate`, `Spec/WHFastReverse`, `Spec/WHFastSymplectic` | differentiability of flows and the form along two families (`Lemmas/FlowVariation`); Kepler motion as a flow (`Lemmas/KeplerSymplectic`); jump and kick have symmetric derivatives in the heliocentric form (`Lemmas/WHFastVariation`); the coordinates split the form into that of the centre and that of the planets; the same in Jacobi coordinates, where the kick has the softened term of the code (`Lemmas/JacobiForm`, `JacobiVariation`, `JacobiStep`). The code's solver enters by the answers that are exact (`Solver.exactly`) |
| C123 | `Model/FrontEnd`, `Model/Config`, `Model/Builder` | simulation of the loops of the front end over lists by those of the constructor over indices (`Lemmas/FrontEnd`), in any arithmetic; both directions; particles over the reals |
| C124 | `Model/FrontEndEvolver`, `Model/EvolverLoad`, `Model/FrontEnd` | columns read by the front end against records read by the loader (`Lemmas/FrontEndEvolver`), interpolation at the start by C38; combined with C123; reals |
| C125, C126 | `Model/FrontEndTools` | geometry of `Spec/Tools`: angular momentum, eccentricity vector and anomalies of states on ellipses and hyperbolas (`Lemmas/FrontEndTools`); reals |
| C127 | `Model/Json`, `Model/CaseJson`, `Model/FrontEnd`, `Spec/CaseJson` | dictionaries with distinct keys are read field by field, whatever the order (`Lemmas/CaseJson`); the three integrators by the field that is missing in the others; ranges of the numbers by an invariant of `add_particle` |
| C128 | `Model/Analysis`, tides of `Model/Universe` | the heat is a quadratic form in the rotation, averaged by the integrals of C116 over the ellipse; difference of the two as a term in the line of nodes; sign by a Schwarz inequality between Hut's polynomials |
| C129 | `Model/Analysis`, `Model/FrontEndTools` | loop over the bodies with the ones already moved; elements by C125 |
| C130 | `Model/Analysis`, `Model/CaseJson` | cosines and Cauchy-Schwarz; powers of reals; angular momentum by an invariant of the loop over Jacobi coordinates; precession angle by the irrationality of pi |
| C131 | `Model/Resonances`, `Model/FrontEndTools` | congruence modulo 360 with C125; `limit_denominator` by its documentation; the loop of the plots by an invariant |
| C132 | `Model/Constants` | dimensions as integer powers of the units; ratios of square roots; bounds of pi |
| C133 | `Model/FrontEndHelpers`, `Model/FrontEndEvolver`, `Model/Tools` | quadratic polynomial of a logarithm; uniqueness of the smooth function through a table |
| C134 | `Model/CleanJson`, `Model/Json` | induction on the file; sorted fields are determined by their values |
| C135 | `Model/Timeline`, `Model/Resonances` | stable sorting gives a sorted permutation; induction on the detections with the runs as invariant |
| C136 | `Model/Timeline` | sorting the permutation inverts it |
| C137 | `Model/Integrators`, `Model/WHFast` | an iteration is a step between systems up to accelerations; steps joined; C72 and C121 |
| C138 | `Model/RawHistory`, `Model/Output` | rows of a particle as a story of the snapshots; C03 for files that are cut |
| C139 | `Model/SingleResonance`, `Model/Timeline` | folding of angles, grid of C131; Python's negative indices are modelled |
| C140 | `Model/Sine` | intervals of the reduced angle; the function is dead code, its description of the result is not |
| C141 | `Model/Ias15` | lists of numbers of bodies; largest values do not depend on the order; forces in two orders are a hypothesis |
| C142 | `Model/Ias15`, `ias15Iterate` | every function is homogeneous; `is_normal` is assumed not to depend on the unit (no underflow or overflow); with C107 for the universe (`Props/UnitsIas15`) |
| C143 | `Model/Ias15`, `ias15Evaluate` | predictor and final sums are affine in positions and velocities; the test for slow particles is a hypothesis; with C103 for the universe (`Props/ObserverIas15`) |
| C144 | `Model/WHFast.keplerStep` | every quantity of the solver scales with a power of the units, loop by loop; the orbit depends on scalar products only (`Props/KeplerUnits`) |
| C145 | `Model/WHFast.step` | C144 for the Kepler steps; the other parts are linear in the vectors with ratios of masses as factors; the softening of the Jacobi kicks is a length (`Props/WHFastUnits`); iterations of a universe without other effects by C137 (`Props/WHFastFrames`) |
| C146 | `Model/WHFast.step` | in the alternative coordinates only the centre of mass moves; it drifts with constant velocity in the Kepler steps (`Props/WHFastObserver`); iterations of a universe without other effects by C137 (`Props/WHFastFrames`) |
| C147 | `Model/WHFast.step` | sums over planets do not depend on the order, and the planets move one by one; not for Jacobi coordinates, which depend on the order by definition (`Props/WHFastOrder`) |
| C54 | `Model/Gravity` Roche radii | case analysis |

Properties that turn out to be false of the code are stated, refuted by a concrete witness
(`..._violated`), and a `_partial` theorem proves what does hold.  See "Disagreements" below.

## Disagreements between the code and the properties

* **C07.** The existing recovery file is renamed to a backup before the new one is created
  (output.rs 28-54), so a crash in between leaves no (or an incomplete) file at the recovery path
  (`C07_violated`).  What holds: the newest complete snapshot survives there or as a backup.
  JSON backups also get the extension `.bin`, so they must be renamed before they can be resumed.
* **C12.** `iterate` reports completion before any record or recovery snapshot of the final state is
  written (`C12_violated`: in every completed fixed-step run the final state is nowhere).
* **C15.** `--time-limit` is declared with a u64 parser and read as f64 (main.rs 75, 113): every use
  of the option ends in a usage error or a panic (`C15_violated`).
* **C16.** With `--limit` the periodic recovery snapshots are not written (`C16_violated`).
* **C18.** A WHFast state with a NaN or infinity only in fields that LeapFrog lacks is written as JSON
  `null`; reading tries WHFast, IAS15, LeapFrog in turn, ignores unknown fields, and so restores a
  LeapFrog simulation without a warning (`C18_violated`).
* **C29.** `left_index` is increased by the position found relative to a slice that starts 10 samples
  before it, so after two lookups in one interval the slice starts at the sample in use.  A lookup in the
  interval before returns the value of that sample (`C29_violated`).
* **C30.** The interpolated Love number is assigned to a copy of the tidal parameters (`C30_violated`).
* **C32.** The hyperbolic solver returns the scaled mean anomaly itself where it should return the anomaly
  (`C32_violated_hyperbola`); the elliptic solver reduces a
  negative mean anomaly with the wrong sign (`C32_violated_ellipse`).
* **C57.** If the ascending node lies in the half plane cos Ω < 0, the inclination returned is 2π - i
  (`C57_violated_inclination`).  For circular orbits the mean anomaly is folded into [0, π]
  (`C57_violated_circular`).
* **C34, C35.** `initialize` stores products of the positions with the spins of the previous evaluation, and
  the spins are refreshed after it: torque and force belong to different spins, and total angular momentum is
  not conserved (`C34_exact_rate` gives the defect, `C34_violated` a system).  The heating is written with
  refreshed spins and old torques and can be negative (`C35_violated`); in the first record it is NaN
  (`C35_violated_first_record`).
* **C36.** The loop for the host's torque does not skip bodies without tides: 0/0 (`C36_violated`, for every
  system).
* **C39.** oblate_spheroid.rs divides a factor proportional to the squared spin by the squared spin: a body
  that does not rotate makes the host's acceleration NaN (`C39_violated`, `C39_violated_host`).
* **C63.** As for tides, the products of positions and spins belong to the spins of the previous evaluation;
  the force is the gradient of the potential only when the spins have not changed since.
* **C64.** general_relativity.rs: the second order acceleration is divided by c^2 instead of c^4, the spin-orbit
  acceleration and the torques lack 1/r^3 (`C64_violated`, `C64_violated_torque`), and Kidder's relative
  acceleration is given to the companion while the host recoils in addition, so the relative acceleration is too
  large by 1 + m/M.  The first order term alone is the published one (`C64_exact_partial`).  A companion at rest
  relative to the host gets a NaN acceleration (`C64_violated_at_rest`).
* **C66.** general_relativity.rs 861-880 compares only components with |a| < 1e-30, so the iteration ends after
  the first sweep unless an acceleration is practically zero (`C66_sweeps_partial`, `C66_violated`).  The test
  `k == max_iterations` at 884 is never true.
* **C67.** general_relativity.rs 663-665 subtracts the host-centred position of the companion from the inertial
  position of the host; the terms added for WHFast are wrong unless the host is at the origin (`C67_violated`).
* **C61.** constant_time_lag.rs 132 removes the entry (host, companion) instead of (companion, host)
  (`C61_violated`).
* **C45.** The ejection check needs the host to have the smaller index: with the most massive body listed
  last no ejection is ever detected (`C45_violated`).
* **C54.** The Roche radius of two bodies of equal mass is computed from the radius of whichever comes
  second (`C54_violated`).
* **C43.** A disk whose inner and outer edge are both zero stays considered but its body does not become the host
  of the disk: every evaluation of accelerations panics (`C43_violated`).  An effect also stays enabled when no body
  besides its host takes part (`C43_violated_alone`; harmless).
* **C44.** universe.rs computes the heliocentric speed of the companions with the stored heliocentric velocity of
  the host, which is set to zero only afterwards: if the star was supplied with a velocity, the first update gives
  wrong speeds (`C44_violated`); from the second update on all is right (`C44_settles`).
* **C68.** `compute_total_energy` and `compute_total_angular_momentum` use heliocentric coordinates; the values are
  not those of the system and not conserved (`C68_violated`, offset given in `C68_offset_partial`).  Both are unused.
* **C55.** A historic record refreshes the spins before the iteration's first evaluation of the tides, which
  otherwise reads the spins of the previous evaluation: the outcome of the iteration is different
  (`C55_violated`).  Without tides and flattening, or with spins that are up to date, a record changes at most the
  stored heating.
* **C73.** An infinite argument is never reduced: `stumpff_cs3` does not end (`C73_violated_infinite`).
* **C74.** With a NaN coordinate neither Newton's method nor the bisection reaches its end: one NaN makes the
  program hang in the next Kepler step (`C74_violated_nan`).  For negative time steps the bracket of the bisection is
  wrong, and C74 is proved for positive ones only.
* **C72.** whfast.rs 583 adds back the attraction of the Kepler motion with a softened distance (1e-12) that the
  Kepler solver does not have; in Jacobi coordinates the parts do not add up exactly from the second planet on
  (`C72_violated_jacobi`, of relative size 1.5e-12/r^2).
* **C48.** A NaN in the error estimate is "not normal" and counts as "no error": the step is accepted, with NaN
  coordinates, and the next one is four times longer (`C48_nan`).  A step of length zero is never accepted in exact
  arithmetic (`C48_ends` assumes a lower bound of the wanted steps).
* **C79.** ias15.rs: 20 Newton iterations started at 1 reach the seventh root only for moderate arguments; for 3^7 the
  result is larger than 16 (`C79_violated_large`; the effect is limited by the cap at four times the step).  Line 1126
  compares a torque with the largest acceleration so far, so that the last torque above it counts instead of the
  largest (`C79_violated_torque`).
* **C80.** tides/creep_coplanar.rs 466-467: the coefficient of e^5 in `E_(0,±1)` and of e^6 in `E_(0,0)` have the wrong
  sign; (a/r)³ has +261/128 and +35/16 (`C80_violated`, `C80_zeroth_partial`).
* **C81.** tides/creep_coplanar.rs 419-422: in the polar sum the factor of the sine is k²n² instead of γkn, so the terms
  of k and -k cancel and the oblateness never lags; it does not solve the creep equation (`C81_violated`); with the
  lagging terms it does (`C81_polar_partial`).
* **C82.** The torque of the tides raised on the host by a creep companion acts on the host's spin, but
  `calculate_tidal_force` contains only the deformation of the companion, so angular momentum is not conserved
  (`C82_violated`).  The flattening of the creep model reads viscosity and coordinates of the tides
  (`C82_viscosity`: zero with any other tidal model, hence an infinite relaxation rate).
* **C52.** At frequency zero the imaginary part is the first entry of the table instead of zero, so a synchronous planet
  feels a torque (`C52_violated_zero`).  A table shorter than 1024 entries must be padded; the loaders of the repository
  pad with zeros, and then every frequency above the first is above the last one, zero, and gets the Love number zero
  (`C52_violated_short`).  A NaN frequency panics (`C52_violated_nan`).
* **C53.** kaula.rs 188: the radial force on a circular orbit takes the imaginary part of the Love number where the
  limit of eccentric orbits has the real part (`C53_violated_radial`).
* **C83.** kaula.rs: one entry of `G_20q` and seven entries of `G_31q` are wrong (`C83_violated_g20`, `C83_violated_g31`;
  `C83_g20_partial` and `C83_g31_partial` have the right ones).  The rows `G_22q` and `G_32q` are made from these by
  reflection and are as wrong (`C83_violated_conjugate`).
* **C84.** kaula.rs 1155-1204: the functions of degree three are those of Kaula only at special inclinations: F_30p and
  F_33p in the equator, F_31p for polar orbits, F_32p for sin i = 0 or 1 (`C84_violated_f30` .. `C84_violated_f33`).
* **C85.** The real part of the Love number is negated (kaula.rs 1061) and the factor of the planar radial force is
  negative: the tide in an elastic planet pushes it away from the star (`C85_violated_planar`), whereas the inclined case
  attracts (`C85_inclined`).  So the sign of the radial force changes at an obliquity of 1e-8.
* **C86.** For the tide in the star the code exchanges the bodies: force along and across the orbit contain the square of
  the mass of the star instead of that of the planet, and the radius of the planet instead of that of the star
  (`C86_violated_star`, `C86_star_radial`).
* **C87.** The force for the torque on the star is overwritten by every companion (`C87_violated_star`); with a single
  companion it is right.  On eccentric orbits the spin receives the moment of the mean force while the orbit receives
  the force itself, so angular momentum is not conserved (`C87_violated_exchange`).
* **C88.** A table file without records (or with headers only) is accepted; the first lookup then panics
  (`C88_violated_empty`).
* **C90.** If the main file of a brown dwarf ends before the auxiliary one starts, nothing is cut off and all radii of
  gyration are extrapolated (`C90_violated_leconte_range`).
* **C91.** A time that is not a number, in any record, is never rejected: the record is kept with age -1 year
  (`C91_violated_time`).
* **C95.** leapfrog.rs 184-187: the first evaluation of a step asks for torques but not for accelerations, and the
  torque of relativity by Kidder is computed only together with accelerations (universe.rs), so the first half kick of
  the spins lacks it and spins precess at half the relativistic rate (`C95_violated`, `C95_violated_step`,
  `C95_violated_half`).
* **C99.** ias15.rs 526-531 and whfast.rs 270-275: the torques are only integrated if tides, flattening, evolution or
  relativity by Kidder are switched on; the wind is missing in that list.  A star with a wind only keeps its angular
  momentum for ever with IAS15 and WHFast (`C99_violated_ias15`, `C99_violated_whfast`), whereas LeapFrog brakes it
  (`C99_leapfrog_partial`, `C99_leapfrog_brakes_partial`); `C99_violated` has the three side by side.
* **C102.** general_relativity.rs 341-349: where the published spin-orbit acceleration has the scalar product of
  n x v and the spins, `element1` multiplies the components one by one, so the acceleration depends on the choice
  of the axes (`C102_violated`; `C102_kidder_partial` gives the exact difference: these terms and nothing else).
* **C104.** Anderson's relativity (general_relativity.rs 461-640) works in Jacobi coordinates built in the order of
  the list: the acceleration of a body depends on whether it is listed before or after another one
  (`C104_violated`: the same body gets 1.47 `c²` or 0.40 `c²`).  The search for ejected bodies only
  runs when the star is the first body (`C104_violated_stop`, see C45).  Everything else in the construction, an
  evaluation and an iteration of LeapFrog is independent of the order, and so is an iteration of IAS15 that does not
  integrate the spins (`C104_ias15_partial`; with spins see C141).
* **C107.** The factors missing in Kidder's relativity (see C64) show as wrong dimensions: the second order terms are an
  acceleration times a squared velocity, the spin-orbit terms and the torque have an extra length^3
  (`C107_violated`, `C107_kidder_partial`).  The ejection limit (constants.rs `MAX_DISTANCE_2`) and the end of Newhall's
  iteration are numbers in the units of the code (`C107_violated_ejection`).  The temperature of the disk is 280 K times
  mass / sqrt(distance); the missing units are accounted for in the constant of Boltzmann.
* **C114.** leapfrog.rs calls LeapFrog "a second order symplectic integrator". Positions and velocities do converge with the
  second order (C111), but `integrator_part1` and `integrator_part2` advance the angular momenta by `half_time_step` times
  the torque at the start of each half, which is Euler's method. For a star that is braked by a saturated wind the error is at
  least a fifth of the step (`C114_violated`). The first order is proved for all winds (`C114_first_order_partial`). A torque
  evaluated at the middle only and applied for the whole step would give the second order.
* **C118.** The pericentre of a companion does not turn by the published angle. Kidder's corrections in the code turn it by the
  first order angle times `1 + mi / M`, because the acceleration of the host is added to that of the companion which is already
  the relative one (C64), and the second order is greater by a factor `c^2` in addition. The code turns the pericentre of every
  eccentric orbit by more than `1 + mi / M` times the published angle (`C118_violated`). Anderson's corrections use the
  gravitational parameter of the host alone and turn it by less than Einstein's angle for every companion with mass
  (`C118_anderson_einstein`). The angles that the code does produce are proved (`C118_kidder_partial`,
  `C118_anderson_partial`); the eccentricity stays the same as published (`C118_eccentricity`).
* **C120.** The code divides the semi-major axis by its intended rate of change, and applies the velocity divided by that
  timescale as deceleration. A deceleration `-v / tau` shrinks a circular orbit at the rate `2 a / tau`, and the recoil of the
  host adds the factor `1 + m / M`: the orbit migrates at more than twice the speed of the gas (`C120_circular_partial`,
  `C120_violated`). The rate for any bound orbit is `C120_rate_partial`. In a dense disk the loss of energy, the decay of the
  eccentricity (nine times the rate of the drift for almost circular orbits, as the migration itself raises it where the
  viscosity grows with the distance) and the fixed pericentre are proved for any eccentricity (`C120_work_partial`,
  `C120_eccentricity_partial`, `C120_pericentre_partial`).
* **C123.** Where the constructor of the library accepts a system, the front end writes a file that describes its
  universe, and vice versa, only under conditions that neither of them checks (`C123_partial`,
  `C123_partial_file`). The front end accepts eleven particles and writes an array that the simulator cannot read, because
  the limit is tested before the particle is added (`C123_violated_eleven`). It accepts different central bodies for tides and
  flattening, where the constructor panics and the simulator would use the tidal one for both (`C123_violated_hosts`), and two
  central bodies of an effect that is not considered (`C123_violated_unused`). It divides by zero when the first particle has
  no mass (`C123_violated_massless`). A disk without edges has a host in the file but none in the constructor
  (`C123_violated_disk`).
* **C124.** If the front end accepts an evolving body, its tables are those of the loader of the library, except for
  `Leconte2011`, of which times and radii agree (`C124_partial_leconte`), and files with an unexpected first line (`C124_partial`,
  `C124_partial_case`). The front end compares the end
  of the tables with the initial time instead of the time limit: it accepts tables that end during the simulation
  (`C124_violated_limit`) and rejects tables that are long enough (`C124_violated_short`). It has no table for 1.5 solar masses
  in `BolmontMathis2016` (`C124_violated_mass`). For `Leconte2011` it smooths the radius of gyration by a B-spline, which does
  not even pass through the tabulated values (`C124_violated_spline`). It always drops the first line of a `Baraffe2015` table
  (`C124_violated_header`).
* **C125.** The front end recovers all elements of inclined ellipses (`C125_partial`), of those in the reference plane
  (`C125_partial_planar`) and of outgoing hyperbolas (`C125_partial_hyperbola`). For inclined orbits with the node on the x axis,
  the default of the cases, the longitude of perihelion is that of its projection (`C125_violated_node`). For inclined circular
  orbits the mean anomaly counts from the x axis but the perihelion is set to the node (`C125_violated_circular`). It adds a
  turn to the mean anomaly of incoming hyperbolas (`C125_violated_hyperbola`), and the distance of the centre of mass from the
  origin to the semi-major axis about several bodies (`C125_violated_bodies`). On parabolas the mean anomaly is zero wherever
  the body is (`C125_violated_parabola`; the rest in `C125_partial_parabola`). For retrograde orbits in the reference plane the
  longitude of perihelion has the wrong sign for the inclination π (`C125_violated_retrograde`).
* **C126.** Ellipses about one body, and hyperbolas away from the perihelion, are the requested orbits (`C126_partial`,
  `C126_partial_hyperbola`). Orbits about several bodies are too small by the distance of their centre of mass from the origin,
  which the inverse function hides (`C126_violated_bodies`, `C126_partial_bodies`). Parabolas, and hyperbolas near the
  perihelion, raise an exception (`C126_violated_parabola`, `C126_violated_hyperbola`): `.sqrt()` and `.abs()` are methods of Rust,
  not of Python.
* **C127.** Files of at most ten bodies, with finite numbers and Kaula tables of 1024 entries, are read as they were meant
  (`C127_partial`), and these are the only ones that are read (`C127_exactly`). The front end also writes, without an exception,
  files of eleven bodies, with shorter Kaula tables, with `Infinity`, or with `1` for an effect to consider, which the simulator
  refuses (`C127_violated_bodies`, `C127_violated_kaula`, `C127_violated_number`, `C127_violated_flags`).
* **C129.** With one planet the elements are right (`C129_partial`). With more, each planet is thought to move around the centre
  of mass of all other bodies, with the sum of all masses; those later in the list enter with their inertial coordinates, although
  the star has been put into the origin, and the distance of this point is added to the semi-major axis (`C129_exactly`).
  `C129_violated`: a planet on an ellipse is reported with a smaller eccentricity, which changes with the origin of the
  coordinates. With another reference body than the first, the reference is listed as a planet of itself, and the first body is
  not listed (`C129_violated_reference`).
* **C130.** Obliquities, corotation radius, orbital period and angular momentum are right (`C130_obliquity`, `C130_corotation`,
  `C130_period`, `C130_momentum`). The precession angle takes the sine of an angle in degrees (`C130_violated_precession`); the
  period of pseudo-synchronization is NaN for every eccentric orbit, as the wrong points are masked (`C130_violated_pseudo`,
  right for circles: `C130_pseudo_partial`); the mean tidal flux is zero for every case file, as the scale of the dissipation
  is looked up beside and not inside the tidal model (`C130_violated_flux`).
* **C131.** Resonant angles, apsides, independence of the reference direction and the fractions that are proposed are right
  (`C131_angles`, `C131_apsides`, `C131_rotation`, `C131_proposed`, `C131_nominal`). The node is computed from the longitude of the
  perihelion, so that the argument of the perihelion is always zero (`C131_violated_node`); numerators equal to the limit are never
  proposed, against the documentation (`C131_violated_numerator`); resonances within the uncertainty are missed between the
  samples (`C131_violated_missed`); libration opposite to the centre is not recognized (`C131_violated_libration`).
* **C132.** Units are right and the same in both programs (`C132_units`, `C132_same`, `C132_period`). The mass of the Sun is
  1.9818e30 kg instead of the 1.9884e30 kg of the cited IAU 2009 system (`C132_violated_sun`), so that every orbit takes longer by
  one part in 600 (`C132_violated_periods`) and the year has 365.87 days (`C132_violated_year`). The mass of the hydrogen atom is
  neither that of CODATA nor that of the proton (`C132_violated_hydrogen`).
* **C133.** The fit of the radius is used for all masses: below a thousandth of the mass of the Earth lighter planets are larger
  (`C133_violated_grows`), and a body of 1e-8 Earth masses is larger than two Earths (`C133_violated_asteroid`).
* **C135.** For histories of more than 500 samples the script always ends with an exception, because the step between the tested
  samples is a quotient and `range` takes no floats in Python 3 (`C135_violated_long`). A detection extends the last entry of the
  planet when the ratio is the same, even if it is with another planet, so that an entry may name a planet that was not the next one
  any more (`C135_violated_partner`).
* **C139.** `explore_single_resonance.py` numbers planets from one and takes `a[inner_planet - 1]` without a check, so that number
  0 silently means the last planet (`C139_violated_zero`).  It refuses `inner > outer` with the message that the inner number
  should be smaller, but accepts equal numbers, unless it is that of the last planet: the time is read from `t[inner_planet]`,
  one planet too far, and there is none (`C139_violated_same`).
* **C140.** `mco_sine` (tools.rs 806, not called) reduces angles that are not positive by two turns instead of one, and takes the
  sign of the sine from the comparison of the reduced angle with π.  In the third half turn the sign is wrong
  (`C140_exactly`); the sine of -3π/2 comes out as -1 (`C140_violated`).  This answers the question in the comment of line 813.
* **C141.** Line 1126 of `ias15.rs` compares a torque with the largest acceleration instead of the largest torque (see C79), so
  that the last torque larger than the accelerations so far is kept.  With spins the estimated error, and with it the length of
  the steps, depends on the order in which the bodies are listed (`C141_violated`).
* **C142.** The errors of `ias15.rs` (lines 1052 and 1136) divide the larger of a last coefficient of the accelerations and one of
  the torques by the larger of an acceleration and a torque.  These have different dimensions, so that with spins the length of
  the steps depends on the units (`C142_violated`), for example on that of mass.
  Otherwise whole runs of IAS15 do not depend on the units of time and mass (`C142_run_partial`; for the unit of length see C107).
* **C143.** Lines 1086-1111 of `ias15.rs` leave particles out of the estimate of the error if their velocity times the step is less
  than 1e-8 of their distance from the origin, so that the length of the steps depends on the place of the origin
  (`C143_violated`).  The sweeps do not (`C143_sweeps`), nor a step for observers for whom the same particles are slow
  (`C143_attempt_partial`, `C143_universe_partial`).
* **C145.** `jacobi_interaction_step` (`whfast.rs` 566-592) adds 1e-12 to squared distances whatever the unit of length, so kicks in
  Jacobi coordinates are not the same in other units of length (`C145_violated`).  Steps in the other two coordinate systems are, and
  steps in Jacobi coordinates are the same in other units of time and for other axes (`C145_step_partial`, `C145_gravity_partial`).
