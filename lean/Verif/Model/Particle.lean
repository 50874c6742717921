import Verif.Model.Vec
import Verif.Model.Evolver

/-!
# Particles

/repo/src/particles/particle.rs 16-51 and the parameter records of the effects
(/repo/src/effects/tides/common.rs 41-100, rotational_flattening/common.rs 8-62,
general_relativity.rs 10-58, wind.rs 6-38, disk.rs 6-57).

Simplified: the nested records `parameters.internal`, `parameters.output` and `coordinates` of each effect
are flattened into one record; `reference` (orbital elements for the output) is left out.
-/

namespace Posidonius

/-- `x.powi(n)` as a product of `n` factors. -/
def ipow {F : Type} [Mul F] [FOps F] (x : F) : Nat → F
  | 0 => lit 1
  | 1 => x
  | n + 2 => ipow x (n + 1) * x

namespace Univ
open Evolution (EvolutionType)

/-- /repo/src/constants.rs: the physical constants used by the effects. -/
structure Consts (F : Type) where
  /-- `G` and `K2` (the same number). -/
  g : F
  /-- `SPEED_OF_LIGHT_2`. -/
  c2 : F
  /-- `R_SUN`. -/
  rSun : F
  /-- `SMOOTHING_FACTOR_DYN_TIDE_COROTATION`. -/
  smoothing : F
  /-- `SUN_DYN_FREQ_2`. -/
  sunDynFreq2 : F
  /-- `BOLTZMANN_CONSTANT`. -/
  boltzmann : F
  /-- `MASS_HYDROGEN_ATOM`. -/
  massHydrogen : F

/-- tides/common.rs 82-86.  The parameters of Kaula's model are irrelevant here. -/
inductive TidalModel (F : Type) where
  | constantTimeLag (dissipationFactor dissipationFactorScale loveNumber : F)
  | creepCoplanar (uniformViscosity : F)
  | kaula

/-- tides/common.rs 89-93. -/
inductive TidesEffect (F : Type) where
  | central (model : TidalModel F)
  | orbiting (model : TidalModel F)
  | disabled

/-- tides/common.rs 42-100. -/
structure Tides (F : Type) where
  effect : TidesEffect F
  distance : F
  radialVelocity : F
  scaledDissipationFactor : F
  /-- `scalar_product_of_vector_position_with_stellar_spin` -/
  rDotStellarSpin : F
  /-- `scalar_product_of_vector_position_with_planetary_spin` -/
  rDotPlanetarySpin : F
  /-- `orthogonal_component_of_the_tidal_force_due_to_stellar_tide` -/
  orthogonalStellar : F
  /-- `orthogonal_component_of_the_tidal_force_due_to_planetary_tide` -/
  orthogonalPlanetary : F
  /-- `radial_component_of_the_tidal_force` -/
  radial : F
  /-- `radial_component_of_the_tidal_force_dissipative_part_when_star_as_point_mass` -/
  radialDissipativePlanet : F
  shape : Axes F
  denergyDt : F
  lagAngle : F
  acceleration : Axes F
  dAngularMomentumDt : Axes F
  position : Axes F
  velocity : Axes F

/-- rotational_flattening/common.rs 44-47 (and oblate_spheroid.rs 8-10). -/
inductive FlatteningModel (F : Type) where
  | oblateSpheroid (loveNumber : F)
  | creepCoplanar (uniformViscosity : F)

/-- rotational_flattening/common.rs 50-54. -/
inductive FlatteningEffect (F : Type) where
  | central (model : FlatteningModel F)
  | orbiting (model : FlatteningModel F)
  | disabled

/-- rotational_flattening/common.rs 9-61. -/
structure Flattening (F : Type) where
  effect : FlatteningEffect F
  distance : F
  rDotStellarSpin : F
  rDotPlanetarySpin : F
  /-- `radial_component_of_the_force_induced_by_rotation` -/
  radial : F
  /-- `factor_for_the_force_induced_by_star_rotation` -/
  factorStar : F
  /-- `factor_for_the_force_induced_by_planet_rotation` -/
  factorPlanet : F
  /-- `orthogonal_component_of_the_force_induced_by_star_rotation` -/
  orthogonalStar : F
  /-- `orthogonal_component_of_the_force_induced_by_planet_rotation` -/
  orthogonalPlanet : F
  shape : Axes F
  acceleration : Axes F
  dAngularMomentumDt : Axes F
  position : Axes F
  velocity : Axes F

/-- general_relativity.rs 40-45. -/
inductive GrImplementation where
  | kidder1995
  | anderson1975
  | newhall1983
  | disabled
deriving DecidableEq, Repr

/-- general_relativity.rs 48-52. -/
inductive GrEffect where
  | central (implementation : GrImplementation)
  | orbiting
  | disabled
deriving DecidableEq, Repr

/-- general_relativity.rs 11-58. -/
structure Gr (F : Type) where
  effect : GrEffect
  distance : F
  radialVelocity : F
  normVelocity : F
  normVelocity2 : F
  factor : F
  acceleration : Axes F
  dAngularMomentumDt : Axes F
  position : Axes F
  velocity : Axes F

/-- wind.rs 6-38; `interaction` is `effect == WindEffect::Interaction`. -/
structure Wind (F : Type) where
  interaction : Bool
  kFactor : F
  rotationSaturation : F
  rotationSaturation2 : F
  dAngularMomentumDt : Axes F

/-- disk.rs 7-14. -/
structure DiskProperties (F : Type) where
  innerEdgeDistance : F
  outerEdgeDistance : F
  lifetime : F
  alpha : F
  surfaceDensityNormalization : F
  meanMolecularWeight : F

/-- disk.rs 45-49. -/
inductive DiskEffect (F : Type) where
  | central (disk : DiskProperties F)
  | orbiting
  | disabled

/-- disk.rs 18-56. -/
structure Disk (F : Type) where
  effect : DiskEffect F
  distance : F
  normVelocity : F
  normVelocity2 : F
  migrationTimescale : F
  acceleration : Axes F
  position : Axes F
  velocity : Axes F

/-- particle.rs 16-51. -/
structure Particle (F : Type) where
  id : Nat
  mass : F
  massG : F
  radius : F
  inertialPosition : Axes F
  inertialVelocity : Axes F
  inertialAcceleration : Axes F
  inertialAdditionalAcceleration : Axes F
  heliocentricPosition : Axes F
  heliocentricVelocity : Axes F
  heliocentricDistance : F
  heliocentricRadialVelocity : F
  heliocentricNormVelocity : F
  heliocentricNormVelocity2 : F
  spin : Axes F
  normSpin2 : F
  angularMomentum : Axes F
  dAngularMomentumDt : Axes F
  radiusOfGyration2 : F
  momentOfInertia : F
  tides : Tides F
  flattening : Flattening F
  gr : Gr F
  wind : Wind F
  disk : Disk F
  evolution : EvolutionType

section
variable {F : Type} [Add F] [Sub F] [Mul F] [Div F] [Neg F] [FOps F]

/-- Loops `for particle in particles.iter_mut().chain(more_particles.iter_mut())` over all the particles
except the host `h`, in index order; `f` gets the particle as it is when its turn comes. -/
def others {n : Nat} (h : Fin n) : List (Fin n) := (List.finRange n).filter (· ≠ h)

/-- Update every particle except the host with a function of the host and the particle. -/
def mapOthers {n : Nat} {P : Type} (h : Fin n) (f : P → P → P) (p : Fin n → P) : Fin n → P :=
  fun i => if i = h then p i else f (p h) (p i)

/-- Update the host. -/
def mapHost {n : Nat} {P : Type} (h : Fin n) (f : P → P) (p : Fin n → P) : Fin n → P :=
  fun i => if i = h then f (p i) else p i

/-- A sum of vectors over the particles other than the host, in index order, from zero. -/
def sumOthers {n : Nat} {P : Type} (h : Fin n) (f : P → Axes F) (p : Fin n → P) : Axes F :=
  (others h).foldl (fun acc i => acc + f (p i)) Axes.zero

end
end Univ
end Posidonius
