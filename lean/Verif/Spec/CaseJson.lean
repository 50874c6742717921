import Verif.Model.CaseJson

/-!
# Specification: the state that a case file stands for

The structures of the simulator (fields in the order of the Rust sources) with the numbers of the case.
-/

namespace Posidonius.CaseJson
open Posidonius.Json Posidonius.Univ
open Posidonius.Output (F64)
open Evolution (EvolutionType Evolver)
open WHFast (Coordinates)

section
variable {F : Type} (b : F → F64)

/-- `Axes`. -/
def stAxes (a : Axes F) : Val := dict [("x", .f64 (b a.x)), ("y", .f64 (b a.y)), ("z", .f64 (b a.z))]

/-- `Axes::from(0., 0., 0.)`. -/
def stZeroAxes : Val := dict [("x", .f64 0), ("y", .f64 0), ("z", .f64 0)]

/-- An array or a `Vec` of doubles. -/
def stNums (l : List F) : Val := .arr (vals (l.map fun x => .f64 (b x)))

/-- `TidalModel`. -/
def stTidalModel (k : KaulaTables F) : TidalModel F → Val
  | .constantTimeLag s scale love =>
    .variant "ConstantTimeLag" (dict [("dissipation_factor", .f64 (b s)), ("dissipation_factor_scale", .f64 (b scale)),
      ("love_number", .f64 (b love))])
  | .creepCoplanar v => .variant "CreepCoplanar" (dict [("uniform_viscosity_coefficient", .f64 (b v))])
  | .kaula =>
    .variant "Kaula" (dict [("love_number_excitation_frequency", stNums b k.frequency),
      ("real_part_love_number", stNums b k.realPart), ("imaginary_part_love_number", stNums b k.imaginaryPart),
      ("num_datapoints", .f64 (b k.numDatapoints)), ("polynomials", polynomialsDefault),
      ("kaula_tidal_force", stZeroAxes)])

/-- `TidesEffect`. -/
def stTidesEffect (k : KaulaTables F) : TidesEffect F → Val
  | .central m => .variant "CentralBody" (stTidalModel b k m)
  | .orbiting m => .variant "OrbitingBody" (stTidalModel b k m)
  | .disabled => .tag "Disabled"

/-- `Tides`. -/
def stTides (k : KaulaTables F) (t : Tides F) : Val :=
  dict [("effect", stTidesEffect b k t.effect),
    ("parameters", dict [
      ("internal", dict [("distance", .f64 (b t.distance)), ("radial_velocity", .f64 (b t.radialVelocity)),
        ("scaled_dissipation_factor", .f64 (b t.scaledDissipationFactor)),
        ("scalar_product_of_vector_position_with_stellar_spin", .f64 (b t.rDotStellarSpin)),
        ("scalar_product_of_vector_position_with_planetary_spin", .f64 (b t.rDotPlanetarySpin)),
        ("orthogonal_component_of_the_tidal_force_due_to_stellar_tide", .f64 (b t.orthogonalStellar)),
        ("orthogonal_component_of_the_tidal_force_due_to_planetary_tide", .f64 (b t.orthogonalPlanetary)),
        ("radial_component_of_the_tidal_force", .f64 (b t.radial)),
        ("radial_component_of_the_tidal_force_dissipative_part_when_star_as_point_mass",
          .f64 (b t.radialDissipativePlanet)),
        ("shape", stAxes b t.shape), ("denergy_dt", .f64 (b t.denergyDt)), ("lag_angle", .f64 (b t.lagAngle))]),
      ("output", dict [("acceleration", stAxes b t.acceleration),
        ("dangular_momentum_dt", stAxes b t.dAngularMomentumDt)])]),
    ("coordinates", dict [("position", stAxes b t.position), ("velocity", stAxes b t.velocity)])]

/-- `RotationalFlatteningModel`. -/
def stFlatteningModel : FlatteningModel F → Val
  | .oblateSpheroid love => .variant "OblateSpheroid" (dict [("love_number", .f64 (b love))])
  | .creepCoplanar v => .variant "CreepCoplanar" (dict [("uniform_viscosity_coefficient", .f64 (b v))])

/-- `RotationalFlatteningEffect`. -/
def stFlatteningEffect : FlatteningEffect F → Val
  | .central m => .variant "CentralBody" (stFlatteningModel b m)
  | .orbiting m => .variant "OrbitingBody" (stFlatteningModel b m)
  | .disabled => .tag "Disabled"

/-- `RotationalFlattening`. -/
def stFlattening (f : Flattening F) : Val :=
  dict [("effect", stFlatteningEffect b f.effect),
    ("parameters", dict [
      ("internal", dict [("distance", .f64 (b f.distance)),
        ("scalar_product_of_vector_position_with_stellar_spin", .f64 (b f.rDotStellarSpin)),
        ("scalar_product_of_vector_position_with_planetary_spin", .f64 (b f.rDotPlanetarySpin)),
        ("radial_component_of_the_force_induced_by_rotation", .f64 (b f.radial)),
        ("factor_for_the_force_induced_by_star_rotation", .f64 (b f.factorStar)),
        ("factor_for_the_force_induced_by_planet_rotation", .f64 (b f.factorPlanet)),
        ("orthogonal_component_of_the_force_induced_by_star_rotation", .f64 (b f.orthogonalStar)),
        ("orthogonal_component_of_the_force_induced_by_planet_rotation", .f64 (b f.orthogonalPlanet)),
        ("shape", stAxes b f.shape)]),
      ("output", dict [("acceleration", stAxes b f.acceleration),
        ("dangular_momentum_dt", stAxes b f.dAngularMomentumDt)])]),
    ("coordinates", dict [("position", stAxes b f.position), ("velocity", stAxes b f.velocity)])]

/-- `GeneralRelativityImplementation`. -/
def stImplementation : GrImplementation → Val
  | .kidder1995 => .tag "Kidder1995"
  | .anderson1975 => .tag "Anderson1975"
  | .newhall1983 => .tag "Newhall1983"
  | .disabled => .tag "Disabled"

/-- `GeneralRelativityEffect`. -/
def stGrEffect : GrEffect → Val
  | .central i => .variant "CentralBody" (stImplementation i)
  | .orbiting => .tag "OrbitingBody"
  | .disabled => .tag "Disabled"

/-- `GeneralRelativity`. -/
def stGr (g : Gr F) : Val :=
  dict [("effect", stGrEffect g.effect),
    ("parameters", dict [
      ("internal", dict [("distance", .f64 (b g.distance)), ("radial_velocity", .f64 (b g.radialVelocity)),
        ("norm_velocity_vector", .f64 (b g.normVelocity)), ("norm_velocity_vector_2", .f64 (b g.normVelocity2)),
        ("factor", .f64 (b g.factor))]),
      ("output", dict [("acceleration", stAxes b g.acceleration),
        ("dangular_momentum_dt", stAxes b g.dAngularMomentumDt)])]),
    ("coordinates", dict [("position", stAxes b g.position), ("velocity", stAxes b g.velocity)])]

/-- `DiskEffect`. -/
def stDiskEffect : DiskEffect F → Val
  | .central p =>
    .variant "CentralBody" (dict [("inner_edge_distance", .f64 (b p.innerEdgeDistance)),
      ("outer_edge_distance", .f64 (b p.outerEdgeDistance)), ("lifetime", .f64 (b p.lifetime)),
      ("alpha", .f64 (b p.alpha)), ("surface_density_normalization", .f64 (b p.surfaceDensityNormalization)),
      ("mean_molecular_weight", .f64 (b p.meanMolecularWeight))])
  | .orbiting => .tag "OrbitingBody"
  | .disabled => .tag "Disabled"

/-- `Disk`. -/
def stDisk (d : Disk F) : Val :=
  dict [("effect", stDiskEffect b d.effect),
    ("parameters", dict [
      ("internal", dict [("distance", .f64 (b d.distance)), ("norm_velocity_vector", .f64 (b d.normVelocity)),
        ("norm_velocity_vector_2", .f64 (b d.normVelocity2)), ("migration_timescale", .f64 (b d.migrationTimescale))]),
      ("output", dict [("acceleration", stAxes b d.acceleration)])]),
    ("coordinates", dict [("position", stAxes b d.position), ("velocity", stAxes b d.velocity)])]

/-- `Wind`. -/
def stWind (w : Wind F) : Val :=
  dict [("effect", if w.interaction then .tag "Interaction" else .tag "Disabled"),
    ("parameters", dict [
      ("input", dict [("k_factor", .f64 (b w.kFactor)), ("rotation_saturation", .f64 (b w.rotationSaturation))]),
      ("internal", dict [("rotation_saturation_2", .f64 (b w.rotationSaturation2))]),
      ("output", dict [("dangular_momentum_dt", stAxes b w.dAngularMomentumDt)])])]

/-- `EvolutionType`. -/
def stEvolution (mass : F) : EvolutionType → Val
  | .galletBolmont2017 => .variant "GalletBolmont2017" (.f64 (b mass))
  | .bolmontMathis2016 => .variant "BolmontMathis2016" (.f64 (b mass))
  | .baraffe2015 => .variant "Baraffe2015" (.f64 (b mass))
  | .leconte2011 => .variant "Leconte2011" (.f64 (b mass))
  | .baraffe1998 => .variant "Baraffe1998" (.f64 (b mass))
  | .leconteChabrier2013 d => .variant "LeconteChabrier2013" (.bool d)
  | .nonEvolving => .tag "NonEvolving"

/-- `Evolver`. -/
def stEvolver (e : Extra F) : Val :=
  dict [("evolution", stEvolution b e.evolutionMass e.evolver.evolution), ("time", stNums b e.evolver.time),
    ("radius", stNums b e.evolver.radius), ("radius_of_gyration_2", stNums b e.evolver.radiusOfGyration2),
    ("love_number", stNums b e.evolver.loveNumber),
    ("inverse_tidal_q_factor", stNums b e.evolver.inverseTidalQFactor), ("left_index", .int e.evolver.leftIndex)]

/-- `Particle`. -/
def stParticle (p : Particle F) (e : Extra F) : Val :=
  dict [("id", .int p.id), ("mass", .f64 (b p.mass)), ("mass_g", .f64 (b p.massG)), ("radius", .f64 (b p.radius)),
    ("inertial_position", stAxes b p.inertialPosition), ("inertial_velocity", stAxes b p.inertialVelocity),
    ("inertial_acceleration", stAxes b p.inertialAcceleration),
    ("inertial_additional_acceleration", stAxes b p.inertialAdditionalAcceleration),
    ("heliocentric_position", stAxes b p.heliocentricPosition),
    ("heliocentric_velocity", stAxes b p.heliocentricVelocity),
    ("heliocentric_distance", .f64 (b p.heliocentricDistance)),
    ("heliocentric_radial_velocity", .f64 (b p.heliocentricRadialVelocity)),
    ("heliocentric_norm_velocity_vector", .f64 (b p.heliocentricNormVelocity)),
    ("heliocentric_norm_velocity_vector_2", .f64 (b p.heliocentricNormVelocity2)), ("spin", stAxes b p.spin),
    ("norm_spin_vector_2", .f64 (b p.normSpin2)), ("angular_momentum", stAxes b p.angularMomentum),
    ("dangular_momentum_dt", stAxes b p.dAngularMomentumDt), ("radius_of_gyration_2", .f64 (b p.radiusOfGyration2)),
    ("moment_of_inertia", .f64 (b p.momentOfInertia)), ("reference", .tag "MostMassiveParticle"),
    ("tides", stTides b e.kaula p.tides), ("rotational_flattening", stFlattening b p.flattening),
    ("general_relativity", stGr b p.gr), ("wind", stWind b p.wind), ("disk", stDisk b p.disk),
    ("evolution", stEvolution b e.evolutionMass p.evolution)]

/-- `Universe`: the particles of the case, the effects to consider and the hosts; no pair has a dissipation factor yet and
the Roche radii are zero. -/
def stUniverse [FOps F] (k : Case F) : Val :=
  dict [("initial_time", .f64 (b k.initialTime)), ("time_limit", .f64 (b k.timeLimit)),
    ("particles", .arr (vals ((withExtras k.file.particles k.extras).map fun pe => stParticle b pe.1 pe.2))),
    ("particles_evolvers", .arr (vals ((withExtras k.file.particles k.extras).map fun pe => stEvolver b pe.2))),
    ("n_particles", .int k.file.number),
    ("consider_effects", dict [("tides", .bool k.file.consider.tides),
      ("rotational_flattening", .bool k.file.consider.flattening), ("general_relativity", .bool k.file.consider.gr),
      ("disk", .bool k.file.consider.disk), ("wind", .bool k.file.consider.wind),
      ("evolution", .bool k.file.consider.evolution)]),
    ("general_relativity_implementation", stImplementation k.file.grImplementation),
    ("hosts", dict [
      ("index", dict [("most_massive", .int k.file.mostMassive), ("tides", .int k.file.tides),
        ("rotational_flattening", .int k.file.flattening), ("general_relativity", .int k.file.gr),
        ("disk", .int k.file.disk)]),
      ("most_massive", dict [("all", .bool k.file.all), ("general_relativity", .bool k.file.mostMassiveGr),
        ("tides", .bool k.file.mostMassiveTides), ("rotational_flattening", .bool k.file.mostMassiveFlattening),
        ("disk", .bool k.file.mostMassiveDisk)])]),
    ("pair_dependent_scaled_dissipation_factor", dict []), ("roche_radiuses", zeros 100)]

/-- The integrator at the start: time and iteration zero, no snapshot yet (-1), all its memory zero. -/
def stIntegrator [Mul F] [FOps F] (k : Case F) : Val :=
  match k.kind with
  | .leapfrog =>
    dict [("time_step", .f64 (b k.timeStep)), ("half_time_step", .f64 (b (k.timeStep * lit (1 / 2)))),
      ("universe", stUniverse b k), ("current_time", .f64 0), ("current_iteration", .int 0),
      ("recovery_snapshot_period", .f64 (b k.recoveryPeriod)),
      ("historic_snapshot_period", .f64 (b k.historicPeriod)), ("last_recovery_snapshot_time", minusOne),
      ("last_historic_snapshot_time", minusOne), ("n_historic_snapshots", .int 0), ("hash", .int 0)]
  | .whfast =>
    dict [("time_step", .f64 (b k.timeStep)), ("half_time_step", .f64 (b (k.timeStep * lit (1 / 2)))),
      ("universe", stUniverse b k), ("current_time", .f64 0), ("current_iteration", .int 0),
      ("recovery_snapshot_period", .f64 (b k.recoveryPeriod)),
      ("historic_snapshot_period", .f64 (b k.historicPeriod)), ("last_recovery_snapshot_time", minusOne),
      ("last_historic_snapshot_time", minusOne), ("n_historic_snapshots", .int 0), ("hash", .int 0),
      ("particles_alternative_coordinates", .arr (vals (List.replicate 10 (dict [("mass", .f64 0),
        ("mass_g", .f64 0), ("position", stZeroAxes), ("velocity", stZeroAxes), ("acceleration", stZeroAxes)])))),
      ("alternative_coordinates_type", match k.coordinates with
        | .jacobi => .tag "Jacobi"
        | .democraticHeliocentric => .tag "DemocraticHeliocentric"
        | .whds => .tag "WHDS"),
      ("timestep_warning", .int 0), ("inertial_velocity_errors", .arr (vals (List.replicate 10 stZeroAxes))),
      ("particle_angular_momentum_errors", .arr (vals (List.replicate 10 stZeroAxes)))]
  | .ias15 =>
    dict ([("time_step", .f64 (b k.timeStep)), ("universe", stUniverse b k), ("current_time", .f64 0),
      ("current_iteration", .int 0), ("recovery_snapshot_period", .f64 (b k.recoveryPeriod)),
      ("historic_snapshot_period", .f64 (b k.historicPeriod)), ("last_recovery_snapshot_time", minusOne),
      ("last_historic_snapshot_time", minusOne), ("n_historic_snapshots", .int 0), ("hash", .int 0),
      ("n_particles", .int k.file.number), ("integrator_iterations_max_exceeded", .int 0),
      ("time_step_last_success", .f64 0)] ++ ias15Arrays.map (fun n => (n, zeros 30)) ++ [("s", zeros 9)])

end

/-- A tidal effect uses the Kaula model. -/
def usesKaula {F : Type} : TidesEffect F → Bool
  | .central .kaula => true
  | .orbiting .kaula => true
  | _ => false

/-- The Kaula tables of a body have the length of the arrays of the simulator. -/
def KaulaTables.Fits {F : Type} (k : KaulaTables F) : Prop :=
  k.frequency.length = 1024 ∧ k.realPart.length = 1024 ∧ k.imaginaryPart.length = 1024

end Posidonius.CaseJson
