import Verif.Model.LeapfrogUniverse
import Verif.Model.RealTrig
import Mathlib.Logic.Equiv.Defs

/-! The same system with the bodies listed in another order. -/

namespace Posidonius.Univ

variable {n : Nat}

/-- The particle listed at place `i`: universe.rs numbers the particles as they are listed. -/
def listedAt (i : Fin n) (p : Particle ℝ) : Particle ℝ := { p with id := i }

/-- `v` is `u` with the body `σ i` listed at place `i`. -/
structure Relisted (σ : Equiv.Perm (Fin n)) (u v : Universe ℝ n) : Prop where
  particles : ∀ i, v.particles i = listedAt i (u.particles (σ i))
  evolvers : ∀ i, v.evolvers i = u.evolvers (σ i)
  consider : v.consider = u.consider
  grImplementation : v.grImplementation = u.grImplementation
  mostMassive : σ v.hosts.mostMassive = u.hosts.mostMassive
  tidesHost : v.hosts.tides.map σ = u.hosts.tides
  flatteningHost : v.hosts.flattening.map σ = u.hosts.flattening
  grHost : v.hosts.gr.map σ = u.hosts.gr
  diskHost : v.hosts.disk.map σ = u.hosts.disk
  flags : v.hosts.all = u.hosts.all ∧ v.hosts.mostMassiveTides = u.hosts.mostMassiveTides
    ∧ v.hosts.mostMassiveFlattening = u.hosts.mostMassiveFlattening
    ∧ v.hosts.mostMassiveGr = u.hosts.mostMassiveGr ∧ v.hosts.mostMassiveDisk = u.hosts.mostMassiveDisk
  table : ∀ a b : Fin n, v.table (a * maxParticles + b) = u.table (σ a * maxParticles + σ b)

/-- The particles are numbered as they are listed and there are not too many of them. -/
structure Numbered (u : Universe ℝ n) : Prop where
  ids : ∀ i, (u.particles i).id = i
  few : n ≤ maxParticles

/-- Another tidal acceleration. -/
def withTidal (a : Axes ℝ) (p : Particle ℝ) : Particle ℝ := { p with tides := { p.tides with acceleration := a } }

/-- The creep and Kaula models do not read the numbers of the particles, and the force of Kaula's model does not
depend on the tidal accelerations, which are changed while it is computed for one companion after the other. -/
structure Unnumbered (m : Models ℝ) : Prop where
  creepTorque : ∀ (a b : Fin n) p q c, m.tides.creepTorque (listedAt a p) (listedAt b q) c = m.tides.creepTorque p q c
  creepForce : ∀ (a b : Fin n) p q, m.tides.creepForce (listedAt a p) (listedAt b q) = m.tides.creepForce p q
  kaulaTorque : ∀ (a b : Fin n) p q c, m.tides.kaulaTorque (listedAt a p) (listedAt b q) c = m.tides.kaulaTorque p q c
  kaulaForce : ∀ (a b : Fin n) p q c, m.tides.kaulaForce (listedAt a p) (listedAt b q) c = m.tides.kaulaForce p q c
  kaulaAlone : ∀ (a b : Axes ℝ) p q c, m.tides.kaulaForce (withTidal a p) (withTidal b q) c = m.tides.kaulaForce p q c
  flatteningTorque : ∀ (a b : Fin n) p q c,
    m.flattening.creepTorque (listedAt a p) (listedAt b q) c = m.flattening.creepTorque p q c
  flatteningForce : ∀ (a b : Fin n) p q,
    m.flattening.creepForce (listedAt a p) (listedAt b q) = m.flattening.creepForce p q
  tideShape : ∀ (a b : Fin n) p q, m.tideShape (listedAt a p) (listedAt b q) = m.tideShape p q
  flatteningShape : ∀ (a b : Fin n) p q, m.flatteningShape (listedAt a p) (listedAt b q) = m.flatteningShape p q

/-- Relativity, if any, is not Anderson's. -/
structure Unordered (u : Universe ℝ n) : Prop where
  gr : ∀ i, (u.particles i).gr.effect ≠ .central .anderson1975

end Posidonius.Univ
