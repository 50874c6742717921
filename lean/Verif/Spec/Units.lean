import Verif.Model.LeapfrogUniverse
import Verif.Lemmas.Vec

/-! The same system described with other units of length, time and mass.  What is written here is the dimension of each
quantity. -/

namespace Posidonius.Univ
open Evolution (Evolver)

/-- How many of the new units make an old one. -/
structure Units where
  length : ℝ
  time : ℝ
  mass : ℝ
  length_pos : 0 < length
  time_pos : 0 < time
  mass_pos : 0 < mass

namespace Units
variable (o : Units)

/-- Velocity. -/
noncomputable def velocity : ℝ := o.length / o.time
/-- Acceleration. -/
noncomputable def acceleration : ℝ := o.length / o.time ^ 2
/-- Force. -/
noncomputable def force : ℝ := o.mass * o.length / o.time ^ 2
/-- Energy, torque. -/
noncomputable def torque : ℝ := o.mass * o.length ^ 2 / o.time ^ 2
/-- Action, angular momentum. -/
noncomputable def angularMomentum : ℝ := o.mass * o.length ^ 2 / o.time
/-- The dissipation factor of Hansen (2010): per mass, area and time. -/
noncomputable def dissipation : ℝ := 1 / (o.mass * o.length ^ 2 * o.time)
/-- Viscosity. -/
noncomputable def viscosity : ℝ := o.mass / (o.length * o.time)

/-- The constants of nature and of the sun.  The temperature of the disk is given for a distance and a mass in the units
of the code (280 K * mass / sqrt distance); to make up for it the constant of Boltzmann is an energy per temperature in
these units. -/
noncomputable def consts (k : Consts ℝ) : Consts ℝ where
  g := o.length ^ 3 / (o.mass * o.time ^ 2) * k.g
  c2 := o.velocity ^ 2 * k.c2
  rSun := o.length * k.rSun
  smoothing := k.smoothing / o.time
  sunDynFreq2 := k.sunDynFreq2 / o.time ^ 2
  boltzmann := o.torque * Real.sqrt o.length / o.mass * k.boltzmann
  massHydrogen := o.mass * k.massHydrogen

/-- A tidal model. -/
noncomputable def tidalModel : TidalModel ℝ → TidalModel ℝ
  | .constantTimeLag sigma scale love => .constantTimeLag (o.dissipation * sigma) scale love
  | .creepCoplanar eta => .creepCoplanar (o.viscosity * eta)
  | .kaula => .kaula

/-- The role of a body in tides. -/
noncomputable def tidesEffect : TidesEffect ℝ → TidesEffect ℝ
  | .central m => .central (o.tidalModel m)
  | .orbiting m => .orbiting (o.tidalModel m)
  | .disabled => .disabled

/-- The quantities of the tides. -/
noncomputable def tides (t : Tides ℝ) : Tides ℝ where
  effect := o.tidesEffect t.effect
  distance := o.length * t.distance
  radialVelocity := o.velocity * t.radialVelocity
  scaledDissipationFactor := o.dissipation * t.scaledDissipationFactor
  rDotStellarSpin := o.velocity * t.rDotStellarSpin
  rDotPlanetarySpin := o.velocity * t.rDotPlanetarySpin
  orthogonalStellar := o.mass * o.length / o.time * t.orthogonalStellar
  orthogonalPlanetary := o.mass * o.length / o.time * t.orthogonalPlanetary
  radial := o.force * t.radial
  radialDissipativePlanet := o.force * t.radialDissipativePlanet
  shape := t.shape
  denergyDt := o.torque / o.time * t.denergyDt
  lagAngle := t.lagAngle
  acceleration := o.acceleration • t.acceleration
  dAngularMomentumDt := o.torque • t.dAngularMomentumDt
  position := o.length • t.position
  velocity := o.velocity • t.velocity

/-- A model of flattening. -/
noncomputable def flatteningModel : FlatteningModel ℝ → FlatteningModel ℝ
  | .oblateSpheroid love => .oblateSpheroid love
  | .creepCoplanar eta => .creepCoplanar (o.viscosity * eta)

/-- The role of a body in flattening. -/
noncomputable def flatteningEffect : FlatteningEffect ℝ → FlatteningEffect ℝ
  | .central m => .central (o.flatteningModel m)
  | .orbiting m => .orbiting (o.flatteningModel m)
  | .disabled => .disabled

/-- The quantities of the flattening. -/
noncomputable def flattening (f : Flattening ℝ) : Flattening ℝ where
  effect := o.flatteningEffect f.effect
  distance := o.length * f.distance
  rDotStellarSpin := o.velocity * f.rDotStellarSpin
  rDotPlanetarySpin := o.velocity * f.rDotPlanetarySpin
  radial := o.force / o.length * f.radial
  factorStar := o.force * o.length ^ 4 * f.factorStar
  factorPlanet := o.force * o.length ^ 4 * f.factorPlanet
  orthogonalStar := o.mass * o.length / o.time * f.orthogonalStar
  orthogonalPlanet := o.mass * o.length / o.time * f.orthogonalPlanet
  shape := f.shape
  acceleration := o.acceleration • f.acceleration
  dAngularMomentumDt := o.torque • f.dAngularMomentumDt
  position := o.length • f.position
  velocity := o.velocity • f.velocity

/-- The quantities of general relativity. -/
noncomputable def gr (g : Gr ℝ) : Gr ℝ where
  effect := g.effect
  distance := o.length * g.distance
  radialVelocity := o.velocity * g.radialVelocity
  normVelocity := o.velocity * g.normVelocity
  normVelocity2 := o.velocity ^ 2 * g.normVelocity2
  factor := g.factor
  acceleration := o.acceleration • g.acceleration
  dAngularMomentumDt := o.torque • g.dAngularMomentumDt
  position := o.length • g.position
  velocity := o.velocity • g.velocity

/-- The quantities of the wind: torque = factor * spin^3 * sqrt(radius / sun's radius / mass). -/
noncomputable def wind (w : Wind ℝ) : Wind ℝ where
  interaction := w.interaction
  kFactor := o.mass * o.length ^ 2 * o.time * Real.sqrt o.mass * w.kFactor
  rotationSaturation := w.rotationSaturation / o.time
  rotationSaturation2 := w.rotationSaturation2 / o.time ^ 2
  dAngularMomentumDt := o.torque • w.dAngularMomentumDt

/-- The parameters of the disk: surface density = normalization / distance. -/
noncomputable def diskProperties (d : DiskProperties ℝ) : DiskProperties ℝ where
  innerEdgeDistance := o.length * d.innerEdgeDistance
  outerEdgeDistance := o.length * d.outerEdgeDistance
  lifetime := o.time * d.lifetime
  alpha := d.alpha
  surfaceDensityNormalization := o.mass / o.length * d.surfaceDensityNormalization
  meanMolecularWeight := d.meanMolecularWeight

/-- The role of a body for the disk. -/
noncomputable def diskEffect : DiskEffect ℝ → DiskEffect ℝ
  | .central d => .central (o.diskProperties d)
  | .orbiting => .orbiting
  | .disabled => .disabled

/-- The quantities of the disk. -/
noncomputable def disk (d : Disk ℝ) : Disk ℝ where
  effect := o.diskEffect d.effect
  distance := o.length * d.distance
  normVelocity := o.velocity * d.normVelocity
  normVelocity2 := o.velocity ^ 2 * d.normVelocity2
  migrationTimescale := o.time * d.migrationTimescale
  acceleration := o.acceleration • d.acceleration
  position := o.length • d.position
  velocity := o.velocity • d.velocity

/-- A particle. -/
noncomputable def sees (p : Particle ℝ) : Particle ℝ where
  id := p.id
  mass := o.mass * p.mass
  massG := o.length ^ 3 / o.time ^ 2 * p.massG
  radius := o.length * p.radius
  inertialPosition := o.length • p.inertialPosition
  inertialVelocity := o.velocity • p.inertialVelocity
  inertialAcceleration := o.acceleration • p.inertialAcceleration
  inertialAdditionalAcceleration := o.acceleration • p.inertialAdditionalAcceleration
  heliocentricPosition := o.length • p.heliocentricPosition
  heliocentricVelocity := o.velocity • p.heliocentricVelocity
  heliocentricDistance := o.length * p.heliocentricDistance
  heliocentricRadialVelocity := o.velocity * p.heliocentricRadialVelocity
  heliocentricNormVelocity := o.velocity * p.heliocentricNormVelocity
  heliocentricNormVelocity2 := o.velocity ^ 2 * p.heliocentricNormVelocity2
  spin := (1 / o.time) • p.spin
  normSpin2 := p.normSpin2 / o.time ^ 2
  angularMomentum := o.angularMomentum • p.angularMomentum
  dAngularMomentumDt := o.torque • p.dAngularMomentumDt
  radiusOfGyration2 := p.radiusOfGyration2
  momentOfInertia := o.mass * o.length ^ 2 * p.momentOfInertia
  tides := o.tides p.tides
  flattening := o.flattening p.flattening
  gr := o.gr p.gr
  wind := o.wind p.wind
  disk := o.disk p.disk
  evolution := p.evolution

/-- The tables of an evolving body. -/
noncomputable def evolver (e : Evolver ℝ) : Evolver ℝ :=
  { e with time := e.time.map (o.time * ·), radius := e.radius.map (o.length * ·) }

/-- The dissipation factors of pairs of bodies. -/
noncomputable def table (t : Table ℝ) : Table ℝ := fun key => (t key).map (o.dissipation * ·)

/-- The universe in the new units. -/
noncomputable def describes {n : Nat} (u : Universe ℝ n) : Universe ℝ n :=
  { u with particles := fun i => o.sees (u.particles i), evolvers := fun i => o.evolver (u.evolvers i),
           table := o.table u.table }

end Units
end Posidonius.Univ
