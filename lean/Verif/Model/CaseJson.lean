import Verif.Model.Json
import Verif.Model.FrontEnd
import Verif.Model.WHFast

/-!
# The case file: what the Python front end writes and what the simulator reads

The types of the simulator: /repo/src/particles/universe.rs 15-63, particles/particle.rs 9-52, particles/axes.rs 3-8,
effects/tides/common.rs 41-100, tides/constant_time_lag.rs 12-18, tides/creep_coplanar.rs 11-14, tides/kaula.rs 13-26 and
1066-1080, rotational_flattening/common.rs 8-61, oblate_spheroid.rs 7-10, general_relativity.rs 10-58, disk.rs 6-56,
wind.rs 6-38, evolution.rs 8-28.  The dictionaries of the front end: /repo/posidonius/integrator/*.py,
particles/universe.py 36-66 and 313-362, particles/particle.py 49-93, effects/*.py, particles/axes.py.

The numbers are of any type `F`; `b x` is the double of `x`.  A Python dictionary is a `Val.record`, a string a `Val.tag`.
The keys are in the order of the source; `sort_keys` sorts them, and the reader does not care.  All numbers of the case are
floats (Python integers would be written without a point, and read as floats all the same).
-/

namespace Posidonius.CaseJson
open Posidonius.Json Posidonius.Univ
open Posidonius.Output (F64)
open Evolution (EvolutionType Evolver)
open WHFast (Coordinates)

/-! ## The types of the simulator -/

/-- A structure. -/
def struct (l : List (String × Ty)) : Ty := .struct (fields l)

/-- tides/constant_time_lag.rs 12-18. -/
def constantTimeLagTy : Ty :=
  struct [("dissipation_factor", .f64), ("dissipation_factor_scale", .f64), ("love_number", .f64)]

/-- tides/creep_coplanar.rs 11-14. -/
def creepTy : Ty := struct [("uniform_viscosity_coefficient", .f64)]

/-- The fields of tides/kaula.rs 1066-1080 `Polynomials`. -/
def polynomialsFields : List (String × Ty) :=
  [("eccentricity_function_g_2pq", .array 3 (.array 15 .f64)), ("eccentricity_function_g_20q", .array 15 .f64),
   ("eccentricity_function_g_21q", .array 15 .f64), ("eccentricity_function_g_3pq", .array 4 (.array 15 .f64)),
   ("inclination_function_f_20p", .array 3 .f64), ("inclination_function_f_21p", .array 3 .f64),
   ("inclination_function_f_22p", .array 3 .f64), ("inclination_function_f_30p", .array 4 .f64),
   ("inclination_function_f_31p", .array 4 .f64), ("inclination_function_f_32p", .array 4 .f64),
   ("inclination_function_f_33p", .array 4 .f64)]

/-- A list of values. -/
def vals : List Val → Vals
  | [] => .nil
  | v :: l => .cons v (vals l)

/-- A dictionary, or a structure. -/
def dict (l : List (String × Val)) : Val := .record (go l)
where go : List (String × Val) → VFields
  | [] => .nil
  | (n, v) :: l => .cons n v (go l)

/-- `[0.0; n]`. -/
def zeros (n : Nat) : Val := .arr (vals (List.replicate n (.f64 0)))

/-- `Polynomials::default()`. -/
def polynomialsDefault : Val :=
  dict [("eccentricity_function_g_2pq", .arr (vals (List.replicate 3 (zeros 15)))),
    ("eccentricity_function_g_20q", zeros 15), ("eccentricity_function_g_21q", zeros 15),
    ("eccentricity_function_g_3pq", .arr (vals (List.replicate 4 (zeros 15)))),
    ("inclination_function_f_20p", zeros 3), ("inclination_function_f_21p", zeros 3),
    ("inclination_function_f_22p", zeros 3), ("inclination_function_f_30p", zeros 4),
    ("inclination_function_f_31p", zeros 4), ("inclination_function_f_32p", zeros 4),
    ("inclination_function_f_33p", zeros 4)]

/-- tides/kaula.rs 13-26. -/
def kaulaTy : Ty :=
  .struct (.cons "love_number_excitation_frequency" (.array 1024 .f64) <|
    .cons "real_part_love_number" (.array 1024 .f64) <| .cons "imaginary_part_love_number" (.array 1024 .f64) <|
    .cons "num_datapoints" .f64 <| .dflt "polynomials" (struct polynomialsFields) polynomialsDefault <|
    .cons "kaula_tidal_force" axes .nil)

/-- tides/common.rs 81-93. -/
def tidalModelTy : Ty :=
  .enum (.payload "ConstantTimeLag" constantTimeLagTy <| .payload "CreepCoplanar" creepTy <|
    .payload "Kaula" kaulaTy .nil)
def tidesEffectTy : Ty :=
  .enum (.payload "CentralBody" tidalModelTy <| .payload "OrbitingBody" tidalModelTy <| .unit "Disabled" .nil)

/-- tides/common.rs 41-78: parameters and coordinates. -/
def tidesInternalFields : List (String × Ty) :=
  [("distance", .f64), ("radial_velocity", .f64), ("scaled_dissipation_factor", .f64),
   ("scalar_product_of_vector_position_with_stellar_spin", .f64),
   ("scalar_product_of_vector_position_with_planetary_spin", .f64),
   ("orthogonal_component_of_the_tidal_force_due_to_stellar_tide", .f64),
   ("orthogonal_component_of_the_tidal_force_due_to_planetary_tide", .f64),
   ("radial_component_of_the_tidal_force", .f64),
   ("radial_component_of_the_tidal_force_dissipative_part_when_star_as_point_mass", .f64),
   ("shape", axes), ("denergy_dt", .f64), ("lag_angle", .f64)]
def forceOutputTy : Ty := struct [("acceleration", axes), ("dangular_momentum_dt", axes)]
def coordinatesTy : Ty := struct [("position", axes), ("velocity", axes)]

/-- tides/common.rs 95-100. -/
def tidesTy : Ty :=
  struct [("effect", tidesEffectTy),
    ("parameters", struct [("internal", struct tidesInternalFields), ("output", forceOutputTy)]),
    ("coordinates", coordinatesTy)]

/-- rotational_flattening/common.rs 8-61. -/
def flatteningModelTy : Ty :=
  .enum (.payload "OblateSpheroid" (struct [("love_number", .f64)]) <| .payload "CreepCoplanar" creepTy .nil)
def flatteningEffectTy : Ty :=
  .enum (.payload "CentralBody" flatteningModelTy <| .payload "OrbitingBody" flatteningModelTy <|
    .unit "Disabled" .nil)
def flatteningInternalFields : List (String × Ty) :=
  [("distance", .f64), ("scalar_product_of_vector_position_with_stellar_spin", .f64),
   ("scalar_product_of_vector_position_with_planetary_spin", .f64),
   ("radial_component_of_the_force_induced_by_rotation", .f64),
   ("factor_for_the_force_induced_by_star_rotation", .f64),
   ("factor_for_the_force_induced_by_planet_rotation", .f64),
   ("orthogonal_component_of_the_force_induced_by_star_rotation", .f64),
   ("orthogonal_component_of_the_force_induced_by_planet_rotation", .f64), ("shape", axes)]
def flatteningTy : Ty :=
  struct [("effect", flatteningEffectTy),
    ("parameters", struct [("internal", struct flatteningInternalFields), ("output", forceOutputTy)]),
    ("coordinates", coordinatesTy)]

/-- general_relativity.rs 10-58. -/
def grImplementationTy : Ty := .tags ["Kidder1995", "Anderson1975", "Newhall1983", "Disabled"]
def grEffectTy : Ty :=
  .enum (.payload "CentralBody" grImplementationTy <| .unit "OrbitingBody" <| .unit "Disabled" .nil)
def grTy : Ty :=
  struct [("effect", grEffectTy),
    ("parameters", struct [
      ("internal", struct [("distance", .f64), ("radial_velocity", .f64), ("norm_velocity_vector", .f64),
        ("norm_velocity_vector_2", .f64), ("factor", .f64)]),
      ("output", forceOutputTy)]),
    ("coordinates", coordinatesTy)]

/-- disk.rs 6-56. -/
def diskPropertiesTy : Ty :=
  struct [("inner_edge_distance", .f64), ("outer_edge_distance", .f64), ("lifetime", .f64), ("alpha", .f64),
    ("surface_density_normalization", .f64), ("mean_molecular_weight", .f64)]
def diskEffectTy : Ty :=
  .enum (.payload "CentralBody" diskPropertiesTy <| .unit "OrbitingBody" <| .unit "Disabled" .nil)
def diskTy : Ty :=
  struct [("effect", diskEffectTy),
    ("parameters", struct [
      ("internal", struct [("distance", .f64), ("norm_velocity_vector", .f64), ("norm_velocity_vector_2", .f64),
        ("migration_timescale", .f64)]),
      ("output", struct [("acceleration", axes)])]),
    ("coordinates", coordinatesTy)]

/-- wind.rs 6-38. -/
def windTy : Ty :=
  struct [("effect", .tags ["Interaction", "Disabled"]),
    ("parameters", struct [("input", struct [("k_factor", .f64), ("rotation_saturation", .f64)]),
      ("internal", struct [("rotation_saturation_2", .f64)]),
      ("output", struct [("dangular_momentum_dt", axes)])])]

/-- evolution.rs 8-28. -/
def evolutionTy : Ty :=
  .enum (.payload "GalletBolmont2017" .f64 <| .payload "BolmontMathis2016" .f64 <| .payload "Baraffe2015" .f64 <|
    .payload "Leconte2011" .f64 <| .payload "Baraffe1998" .f64 <| .payload "LeconteChabrier2013" .bool <|
    .unit "NonEvolving" .nil)
def evolverTy : Ty :=
  struct [("evolution", evolutionTy), ("time", .vec .f64), ("radius", .vec .f64), ("radius_of_gyration_2", .vec .f64),
    ("love_number", .vec .f64), ("inverse_tidal_q_factor", .vec .f64), ("left_index", u64)]

/-- particle.rs 9-52. -/
def referenceTy : Ty := .enum (.unit "MostMassiveParticle" <| .payload "Particle" u64 .nil)
def particleTy : Ty :=
  struct [("id", u64), ("mass", .f64), ("mass_g", .f64), ("radius", .f64), ("inertial_position", axes),
    ("inertial_velocity", axes), ("inertial_acceleration", axes), ("inertial_additional_acceleration", axes),
    ("heliocentric_position", axes), ("heliocentric_velocity", axes), ("heliocentric_distance", .f64),
    ("heliocentric_radial_velocity", .f64), ("heliocentric_norm_velocity_vector", .f64),
    ("heliocentric_norm_velocity_vector_2", .f64), ("spin", axes), ("norm_spin_vector_2", .f64),
    ("angular_momentum", axes), ("dangular_momentum_dt", axes), ("radius_of_gyration_2", .f64),
    ("moment_of_inertia", .f64), ("reference", referenceTy), ("tides", tidesTy),
    ("rotational_flattening", flatteningTy), ("general_relativity", grTy), ("wind", windTy), ("disk", diskTy),
    ("evolution", evolutionTy)]

/-- universe.rs 15-47. -/
def hostsTy : Ty :=
  struct [("index", struct [("most_massive", u64), ("tides", u64), ("rotational_flattening", u64),
      ("general_relativity", u64), ("disk", u64)]),
    ("most_massive", struct [("all", .bool), ("general_relativity", .bool), ("tides", .bool),
      ("rotational_flattening", .bool), ("disk", .bool)])]
def considerTy : Ty :=
  struct [("tides", .bool), ("rotational_flattening", .bool), ("general_relativity", .bool), ("disk", .bool),
    ("wind", .bool), ("evolution", .bool)]

/-- universe.rs 49-63. -/
def universeTy : Ty :=
  struct [("initial_time", .f64), ("time_limit", .f64), ("particles", .array 10 particleTy),
    ("particles_evolvers", .vec evolverTy), ("n_particles", u64), ("consider_effects", considerTy),
    ("general_relativity_implementation", grImplementationTy), ("hosts", hostsTy),
    ("pair_dependent_scaled_dissipation_factor", .map .f64), ("roche_radiuses", .array 100 .f64)]

/-! ## The case -/

/-- What the Kaula model of a body has been given (tides.py 104-129). -/
structure KaulaTables (F : Type) where
  frequency : List F
  realPart : List F
  imaginaryPart : List F
  numDatapoints : F

/-- What belongs to a body and is not part of `Particle`: the tables of the Kaula model, the mass that selects the
evolution table, and the evolver. -/
structure Extra (F : Type) where
  kaula : KaulaTables F
  evolutionMass : F
  evolver : Evolver F

/-- Everything that goes into the file. -/
structure Case (F : Type) where
  file : Py.CaseFile F
  /-- of the real bodies, in order -/
  extras : List (Extra F)
  initialTime : F
  timeLimit : F
  timeStep : F
  recoveryPeriod : F
  historicPeriod : F
  kind : Kind
  coordinates : Coordinates

section
variable {F : Type} [FOps F]

/-- universe.py 322-325: a dummy particle has no table, and an evolver without tables (evolution.py 355-368). -/
def dummyExtra : Extra F :=
  { kaula := ⟨[], [], [], lit 0⟩, evolutionMass := lit 0
    evolver := { evolution := .nonEvolving, time := [], radius := [], radiusOfGyration2 := [], loveNumber := [],
                 inverseTidalQFactor := [], leftIndex := 0 } }

/-- The particles of the file with what belongs to them. -/
def withExtras : List (Particle F) → List (Extra F) → List (Particle F × Extra F)
  | [], _ => []
  | p :: l, [] => (p, dummyExtra) :: withExtras l []
  | p :: l, e :: m => (p, e) :: withExtras l m
end

section
variable {F : Type} (b : F → F64)

/-! ## The dictionaries of the front end -/

def num (x : F) : Val := .f64 (b x)
def nums (l : List F) : Val := .arr (vals (l.map (num b)))

/-- axes.py 3-13. -/
def pyAxes (a : Axes F) : Val := dict [("x", num b a.x), ("y", num b a.y), ("z", num b a.z)]

/-- tides.py 61-129. -/
def pyTidalModel (k : KaulaTables F) : TidalModel F → Val
  | .constantTimeLag s scale love =>
    dict [("ConstantTimeLag", dict [("dissipation_factor_scale", num b scale), ("dissipation_factor", num b s),
      ("love_number", num b love)])]
  | .creepCoplanar v => dict [("CreepCoplanar", dict [("uniform_viscosity_coefficient", num b v)])]
  | .kaula =>
    dict [("Kaula", dict [("love_number_excitation_frequency", nums b k.frequency),
      ("imaginary_part_love_number", nums b k.imaginaryPart), ("real_part_love_number", nums b k.realPart),
      ("num_datapoints", num b k.numDatapoints),
      ("kaula_tidal_force", dict [("x", .f64 0), ("y", .f64 0), ("z", .f64 0)])])]

/-- tides.py 33-39. -/
def pyTidesEffect (k : KaulaTables F) : TidesEffect F → Val
  | .central m => dict [("CentralBody", pyTidalModel b k m)]
  | .orbiting m => dict [("OrbitingBody", pyTidalModel b k m)]
  | .disabled => .tag "Disabled"

/-- tides.py 4-41. -/
def pyTides (k : KaulaTables F) (t : Tides F) : Val :=
  dict [("effect", pyTidesEffect b k t.effect),
    ("parameters", dict [
      ("internal", dict [("denergy_dt", num b t.denergyDt), ("distance", num b t.distance),
        ("lag_angle", num b t.lagAngle),
        ("orthogonal_component_of_the_tidal_force_due_to_planetary_tide", num b t.orthogonalPlanetary),
        ("orthogonal_component_of_the_tidal_force_due_to_stellar_tide", num b t.orthogonalStellar),
        ("radial_component_of_the_tidal_force", num b t.radial),
        ("radial_component_of_the_tidal_force_dissipative_part_when_star_as_point_mass",
          num b t.radialDissipativePlanet),
        ("radial_velocity", num b t.radialVelocity),
        ("scalar_product_of_vector_position_with_planetary_spin", num b t.rDotPlanetarySpin),
        ("scalar_product_of_vector_position_with_stellar_spin", num b t.rDotStellarSpin),
        ("scaled_dissipation_factor", num b t.scaledDissipationFactor), ("shape", pyAxes b t.shape)]),
      ("output", dict [("acceleration", pyAxes b t.acceleration),
        ("dangular_momentum_dt", pyAxes b t.dAngularMomentumDt)])]),
    ("coordinates", dict [("position", pyAxes b t.position), ("velocity", pyAxes b t.velocity)])]

/-- rotational_flattening.py 57-101. -/
def pyFlatteningModel : FlatteningModel F → Val
  | .oblateSpheroid love => dict [("OblateSpheroid", dict [("love_number", num b love)])]
  | .creepCoplanar v => dict [("CreepCoplanar", dict [("uniform_viscosity_coefficient", num b v)])]

/-- rotational_flattening.py 4-37. -/
def pyFlattening (f : Flattening F) : Val :=
  dict [("effect", match f.effect with
      | .central m => dict [("CentralBody", pyFlatteningModel b m)]
      | .orbiting m => dict [("OrbitingBody", pyFlatteningModel b m)]
      | .disabled => .tag "Disabled"),
    ("parameters", dict [
      ("internal", dict [("distance", num b f.distance),
        ("factor_for_the_force_induced_by_planet_rotation", num b f.factorPlanet),
        ("factor_for_the_force_induced_by_star_rotation", num b f.factorStar),
        ("orthogonal_component_of_the_force_induced_by_planet_rotation", num b f.orthogonalPlanet),
        ("orthogonal_component_of_the_force_induced_by_star_rotation", num b f.orthogonalStar),
        ("radial_component_of_the_force_induced_by_rotation", num b f.radial),
        ("scalar_product_of_vector_position_with_planetary_spin", num b f.rDotPlanetarySpin),
        ("scalar_product_of_vector_position_with_stellar_spin", num b f.rDotStellarSpin),
        ("shape", pyAxes b f.shape)]),
      ("output", dict [("acceleration", pyAxes b f.acceleration),
        ("dangular_momentum_dt", pyAxes b f.dAngularMomentumDt)])]),
    ("coordinates", dict [("position", pyAxes b f.position), ("velocity", pyAxes b f.velocity)])]

/-- The names of the implementations (general_relativity.py 58-61, universe.py 42). -/
def implementationName : GrImplementation → String
  | .kidder1995 => "Kidder1995"
  | .anderson1975 => "Anderson1975"
  | .newhall1983 => "Newhall1983"
  | .disabled => "Disabled"

/-- general_relativity.py 3-36. -/
def pyGr (g : Gr F) : Val :=
  dict [("effect", match g.effect with
      | .central i => dict [("CentralBody", .tag (implementationName i))]
      | .orbiting => .tag "OrbitingBody"
      | .disabled => .tag "Disabled"),
    ("parameters", dict [
      ("internal", dict [("distance", num b g.distance), ("factor", num b g.factor),
        ("norm_velocity_vector", num b g.normVelocity), ("norm_velocity_vector_2", num b g.normVelocity2),
        ("radial_velocity", num b g.radialVelocity)]),
      ("output", dict [("acceleration", pyAxes b g.acceleration),
        ("dangular_momentum_dt", pyAxes b g.dAngularMomentumDt)])]),
    ("coordinates", dict [("position", pyAxes b g.position), ("velocity", pyAxes b g.velocity)])]

/-- disk.py 4-34 and 52-66. -/
def pyDisk (d : Disk F) : Val :=
  dict [("effect", match d.effect with
      | .central p => dict [("CentralBody", dict [("alpha", num b p.alpha),
          ("inner_edge_distance", num b p.innerEdgeDistance), ("lifetime", num b p.lifetime),
          ("mean_molecular_weight", num b p.meanMolecularWeight),
          ("outer_edge_distance", num b p.outerEdgeDistance),
          ("surface_density_normalization", num b p.surfaceDensityNormalization)])]
      | .orbiting => .tag "OrbitingBody"
      | .disabled => .tag "Disabled"),
    ("parameters", dict [
      ("internal", dict [("distance", num b d.distance), ("migration_timescale", num b d.migrationTimescale),
        ("norm_velocity_vector", num b d.normVelocity), ("norm_velocity_vector_2", num b d.normVelocity2)]),
      ("output", dict [("acceleration", pyAxes b d.acceleration)])]),
    ("coordinates", dict [("position", pyAxes b d.position), ("velocity", pyAxes b d.velocity)])]

/-- wind.py 4-35. -/
def pyWind (w : Wind F) : Val :=
  dict [("effect", .tag (if w.interaction then "Interaction" else "Disabled")),
    ("parameters", dict [
      ("input", dict [("k_factor", num b w.kFactor), ("rotation_saturation", num b w.rotationSaturation)]),
      ("internal", dict [("rotation_saturation_2", num b w.rotationSaturation2)]),
      ("output", dict [("dangular_momentum_dt", pyAxes b w.dAngularMomentumDt)])])]

/-- evolution.py 6-16; `mass` is the mass that was given to it. -/
def pyEvolution (mass : F) : EvolutionType → Val
  | .galletBolmont2017 => dict [("GalletBolmont2017", num b mass)]
  | .bolmontMathis2016 => dict [("BolmontMathis2016", num b mass)]
  | .baraffe2015 => dict [("Baraffe2015", num b mass)]
  | .leconte2011 => dict [("Leconte2011", num b mass)]
  | .baraffe1998 => dict [("Baraffe1998", num b mass)]
  | .leconteChabrier2013 d => dict [("LeconteChabrier2013", .bool d)]
  | .nonEvolving => .tag "NonEvolving"

/-- evolution.py 358-368 and the other methods `get_evolver`. -/
def pyEvolver (e : Extra F) : Val :=
  dict [("left_index", .int e.evolver.leftIndex), ("evolution", pyEvolution b e.evolutionMass e.evolver.evolution),
    ("love_number", nums b e.evolver.loveNumber), ("radius", nums b e.evolver.radius),
    ("time", nums b e.evolver.time), ("inverse_tidal_q_factor", nums b e.evolver.inverseTidalQFactor),
    ("radius_of_gyration_2", nums b e.evolver.radiusOfGyration2)]

/-- particle.py 59-86.  The reference is always the most massive particle: `ReferenceParticle(i)` raises
(particle.py 26-31, 43-45). -/
def pyParticle (pe : Particle F × Extra F) : Val :=
  let p := pe.1
  dict [("angular_momentum", pyAxes b p.angularMomentum), ("dangular_momentum_dt", pyAxes b p.dAngularMomentumDt),
    ("disk", pyDisk b p.disk), ("evolution", pyEvolution b pe.2.evolutionMass p.evolution),
    ("general_relativity", pyGr b p.gr), ("heliocentric_distance", num b p.heliocentricDistance),
    ("heliocentric_norm_velocity_vector", num b p.heliocentricNormVelocity),
    ("heliocentric_norm_velocity_vector_2", num b p.heliocentricNormVelocity2),
    ("heliocentric_position", pyAxes b p.heliocentricPosition),
    ("heliocentric_radial_velocity", num b p.heliocentricRadialVelocity),
    ("heliocentric_velocity", pyAxes b p.heliocentricVelocity), ("id", .int p.id),
    ("inertial_acceleration", pyAxes b p.inertialAcceleration),
    ("inertial_additional_acceleration", pyAxes b p.inertialAdditionalAcceleration),
    ("inertial_position", pyAxes b p.inertialPosition), ("inertial_velocity", pyAxes b p.inertialVelocity),
    ("mass", num b p.mass), ("mass_g", num b p.massG), ("moment_of_inertia", num b p.momentOfInertia),
    ("norm_spin_vector_2", num b p.normSpin2), ("radius", num b p.radius),
    ("radius_of_gyration_2", num b p.radiusOfGyration2), ("reference", .tag "MostMassiveParticle"),
    ("rotational_flattening", pyFlattening b p.flattening), ("spin", pyAxes b p.spin),
    ("tides", pyTides b pe.2.kaula p.tides), ("wind", pyWind b p.wind)]

/-- A flag of the effects to consider: universe.py 24-26 keeps what was given.  `ones`: the effects to consider were given
as the number 1 instead of `True`. -/
def pyFlag (ones : Bool) (considered : Bool) : Val :=
  if considered then (if ones then .int 1 else .bool true) else .bool false

/-- universe.py 15-22. -/
def pyConsider (ones : Bool) (c : Consider) : Val :=
  dict [("tides", pyFlag ones c.tides), ("rotational_flattening", pyFlag ones c.flattening),
    ("general_relativity", pyFlag ones c.gr), ("disk", pyFlag ones c.disk), ("wind", pyFlag ones c.wind),
    ("evolution", pyFlag ones c.evolution)]

/-- universe.py 36-66. -/
def pyUniverse [FOps F] (ones : Bool) (k : Case F) : Val :=
  let bodies := withExtras k.file.particles k.extras
  dict [("consider_effects", pyConsider ones k.file.consider),
    ("general_relativity_implementation", .tag (implementationName k.file.grImplementation)),
    ("hosts", dict [
      ("index", dict [("most_massive", .int k.file.mostMassive), ("tides", .int k.file.tides),
        ("rotational_flattening", .int k.file.flattening), ("general_relativity", .int k.file.gr),
        ("disk", .int k.file.disk)]),
      ("most_massive", dict [("all", .bool k.file.all), ("tides", .bool k.file.mostMassiveTides),
        ("rotational_flattening", .bool k.file.mostMassiveFlattening),
        ("general_relativity", .bool k.file.mostMassiveGr), ("disk", .bool k.file.mostMassiveDisk)])]),
    ("initial_time", num b k.initialTime), ("n_particles", .int k.file.number),
    ("particles", .arr (vals (bodies.map (pyParticle b)))),
    ("particles_evolvers", .arr (vals (bodies.map fun e => pyEvolver b e.2))),
    ("pair_dependent_scaled_dissipation_factor", dict []), ("roche_radiuses", zeros 100),
    ("time_limit", num b k.timeLimit)]

/-- 0.0, 0.0, 0.0. -/
def zeroAxes : Val := dict [("x", .f64 0), ("y", .f64 0), ("z", .f64 0)]

/-- -1.0. -/
def minusOne : Val := .f64 0xBFF0000000000000

/-- integrator/common.py 5-17. -/
def pyCommon [FOps F] (ones : Bool) (k : Case F) : List (String × Val) :=
  [("time_step", num b k.timeStep), ("universe", pyUniverse b ones k), ("current_time", .f64 0),
   ("current_iteration", .int 0), ("recovery_snapshot_period", num b k.recoveryPeriod),
   ("historic_snapshot_period", num b k.historicPeriod), ("last_recovery_snapshot_time", minusOne),
   ("last_historic_snapshot_time", minusOne), ("n_historic_snapshots", .int 0), ("hash", .int 0)]

/-- whfast.py 4-14. -/
def coordinatesName : Coordinates → String
  | .jacobi => "Jacobi"
  | .democraticHeliocentric => "DemocraticHeliocentric"
  | .whds => "WHDS"

/-- The alternative coordinates of one particle (whfast.py 27-33). -/
def pyAlternative : Val :=
  dict [("mass", .f64 0), ("mass_g", .f64 0), ("position", zeroAxes), ("velocity", zeroAxes),
    ("acceleration", zeroAxes)]

/-- integrator/leapfrog.py 5-7, whfast.py 19-33, ias15.py 5-113 (with all arrays `[0.]*3*MAX_PARTICLES`). -/
def pyIntegrator [Mul F] [FOps F] (ones : Bool) (k : Case F) : Val :=
  match k.kind with
  | .leapfrog => dict (pyCommon b ones k ++ [("half_time_step", num b (k.timeStep * lit (1 / 2)))])
  | .whfast =>
    dict (pyCommon b ones k ++ [("half_time_step", num b (k.timeStep * lit (1 / 2))),
      ("inertial_velocity_errors", .arr (vals (List.replicate 10 zeroAxes))),
      ("particle_angular_momentum_errors", .arr (vals (List.replicate 10 zeroAxes))), ("timestep_warning", .int 0),
      ("alternative_coordinates_type", .tag (coordinatesName k.coordinates)),
      ("particles_alternative_coordinates", .arr (vals (List.replicate 10 pyAlternative)))])
  | .ias15 =>
    dict (pyCommon b ones k ++ [("n_particles", .int k.file.number), ("integrator_iterations_max_exceeded", .int 0),
      ("time_step_last_success", .f64 0)] ++
      ["b_0", "b_1", "b_2", "b_3", "b_4", "b_5", "b_6", "br_0", "br_1", "br_2", "br_3", "br_4", "br_5", "br_6",
        "g_0", "g_1", "g_2", "g_3", "g_4", "g_5", "g_6", "e_0", "e_1", "e_2", "e_3", "e_4", "e_5", "e_6",
        "er_0", "er_1", "er_2", "er_3", "er_4", "er_5", "er_6", "at", "x0", "v0", "a0",
        "sb_0", "sb_1", "sb_2", "sb_3", "sb_4", "sb_5", "sb_6",
        "sbr_0", "sbr_1", "sbr_2", "sbr_3", "sbr_4", "sbr_5", "sbr_6",
        "sg_0", "sg_1", "sg_2", "sg_3", "sg_4", "sg_5", "sg_6",
        "se_0", "se_1", "se_2", "se_3", "se_4", "se_5", "se_6",
        "ser_0", "ser_1", "ser_2", "ser_3", "ser_4", "ser_5", "ser_6",
        "dangular_momentum_dtt", "dangular_momentum_dt0", "angular_momentum0", "csx", "csv", "css"].map
          (fun n => (n, zeros 30)) ++ [("s", zeros 9)])

end

/-! ## Writing and reading -/

mutual
/-- Every double in the value is finite. -/
def allFinite : Val → Bool
  | .f64 x => finite x
  | .int _ => true
  | .bool _ => true
  | .arr l => allFiniteList l
  | .record l => allFiniteFields l
  | .tag _ => true
  | .variant _ v => allFinite v
def allFiniteList : Vals → Bool
  | .nil => true
  | .cons v r => allFinite v && allFiniteList r
def allFiniteFields : VFields → Bool
  | .nil => true
  | .cons _ v r => allFinite v && allFiniteFields r
end

variable {N : Type}

/-- integrator/common.py 19-20 `json.dump`, as a JSON text: a number that is not finite is written as `NaN` or `Infinity`,
which is not JSON (`none`). -/
def dump (c : FloatText N) (v : Val) : Option (Js N) := if allFinite v then some (ser c v) else none

/-- output.rs 205-241 for the file of the front end; `none`: a panic. -/
def read (c : FloatText N) (v : Val) : Option (Kind × Val) :=
  match dump c v with
  | none => none
  | some j => restore c universeTy j

end Posidonius.CaseJson
