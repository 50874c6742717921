import Verif.Model.Universe

/-!
# An iteration of LeapFrog on the whole universe

/repo/src/integrator/leapfrog.rs 142-206 and 234-262 with all effects.  (`Model/Leapfrog.lean` has the step
with arbitrary effects.)  `none` is a panic.  The stored Roche radii, which do not change during a run, are a
parameter.
-/

namespace Posidonius.Univ
open Gravity (Body Ignore)

section
variable {F : Type} [Add F] [Sub F] [Mul F] [Div F] [Neg F] [FOps F] [FPow F] [FTrig F] {n : Nat}

/-- What gravity reads of a particle. -/
def bodyOf (p : Particle F) : Body F := ⟨p.mass, p.radius, p.inertialPosition, p.inertialVelocity⟩

/-- universe.rs 198-303: gravity, written to `inertial_acceleration`. -/
def universeGravity (k : Consts F) (roche : Fin n → Fin n → F) (ignore : Ignore) (u : Universe F n) :
    Option (Universe F n) :=
  match Gravity.gravity k.g (fun i => bodyOf (u.particles i)) roche ignore u.hosts.mostMassive with
  | .error _ => none
  | .ok a => some { u with particles := fun i => { u.particles i with inertialAcceleration := a i } }

/-- leapfrog.rs 157-162: what happens to the universe before a historic record is written. -/
def observe (k : Consts F) (time : F) (u : Universe F n) : Option (Universe F n) :=
  match calculateSpinAndEvolving k time true (inertialToHeliocentric u) with
  | none => none
  | some u1 => if u1.consider.tides then universeDenergyDt u1 else some u1

/-- leapfrog.rs 236-243 for one particle. -/
def driftParticle (half : F) (p : Particle F) : Particle F :=
  { p with inertialPosition := p.inertialPosition + half • p.inertialVelocity,
           angularMomentum := p.angularMomentum + smulRight p.dAngularMomentumDt half }

/-- leapfrog.rs 250-260 for one particle. -/
def kickDriftParticle (dt half : F) (p : Particle F) : Particle F :=
  let velocity := p.inertialVelocity + dt • p.inertialAcceleration
  { p with inertialVelocity := velocity, inertialPosition := p.inertialPosition + half • velocity,
           angularMomentum := p.angularMomentum + smulRight p.dAngularMomentumDt half }

/-- leapfrog.rs 234-245 without the clock. -/
def drift (half : F) (u : Universe F n) : Universe F n :=
  { u with particles := fun i => driftParticle half (u.particles i) }

/-- leapfrog.rs 248-262 without the clock. -/
def kickDrift (dt half : F) (u : Universe F n) : Universe F n :=
  { u with particles := fun i => kickDriftParticle dt half (u.particles i) }

/-- leapfrog.rs 180-205: a step from time `time`; the second evaluation of the effects is at half of it
(`current_time` was increased by `integrator_part1`). -/
def leapfrogStep (k : Consts F) (m : Models F) (eps2 : F) (roche : Fin n → Fin n → F) (dt half time : F)
    (u : Universe F n) : Option (Universe F n) :=
  match calculateAdditionalEffects k m eps2 time true true false .none (inertialToHeliocentric u) with
  | none => none
  | some u1 =>
  match universeGravity k roche .none (drift half u1) with
  | none => none
  | some u2 =>
  match calculateAdditionalEffects k m eps2 (time + half) true true true .none (inertialToHeliocentric u2) with
  | none => none
  | some u3 =>
    some (kickDrift dt half { u3 with particles := fun i => applyAccelerations (u3.particles i) })

/-- leapfrog.rs 151-206: an iteration, with or without a historic record. -/
def leapfrogIterate (k : Consts F) (m : Models F) (eps2 : F) (roche : Fin n → Fin n → F) (dt half time : F)
    (record : Bool) (u : Universe F n) : Option (Universe F n) :=
  match (if record then observe k time u else some u) with
  | none => none
  | some u1 => leapfrogStep k m eps2 roche dt half time u1

end
end Posidonius.Univ
