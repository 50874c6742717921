import Verif.Model.LeapfrogUniverse
import Verif.Model.Ias15
import Verif.Model.WHFastIterate

/-!
# Iterations of IAS15 and WHFast on the whole universe

/repo/src/integrator/ias15.rs 420-463 and /repo/src/integrator/whfast.rs 234-304 with all effects: the evaluations
that are arbitrary in `Model/Ias15`, `Model/Midpoint` and `Model/WHFastIterate` are those of the universe here.
`none` is a panic.  What is written to the output is left out, what computing it does to the universe is not.  The
stored Roche radii, which do not change during a run, are a parameter.
-/

namespace Posidonius.Univ
open Gravity (Ignore)

section
variable {F : Type} [Add F] [Sub F] [Mul F] [Div F] [Neg F] [FOps F] [FPow F] [FTrig F] {n : Nat}

/-- ias15.rs 526-531 and whfast.rs 271-275: whether rotational angular momenta are integrated. -/
def integrateSpin (u : Universe F n) : Bool :=
  u.consider.tides || u.consider.flattening || u.consider.evolution
    || (u.consider.gr && (u.grImplementation == .kidder1995))

/-! ## IAS15 -/

/-- The particle moved to a place. -/
def placed (p : Particle F) (q : Ias15.Place F) : Particle F :=
  { p with inertialPosition := q.position, inertialVelocity := q.velocity, angularMomentum := q.angular }

/-- Where a particle is. -/
def placeOf (p : Particle F) : Ias15.Place F := ⟨p.inertialPosition, p.inertialVelocity, p.angularMomentum⟩

/-- All particles moved; a particle without a place stays. -/
def placeAll (l : List (Ias15.Place F)) (u : Universe F n) : Universe F n :=
  { u with particles := fun i => placed (u.particles i) (l[i.val]?.getD (placeOf (u.particles i))) }

/-- ias15.rs 442-451 and 691-700: gravity, frame, effects and their sum, for particles at the given places. -/
def ias15Evaluate (k : Consts F) (m : Models F) (eps2 : F) (roche : Fin n → Fin n → F) :
    Ias15.Evaluate (Universe F n) F := fun u time l =>
  match universeGravity k roche .none (placeAll l u) with
  | none => none
  | some u1 =>
  match calculateAdditionalEffects k m eps2 time true true true .none (inertialToHeliocentric u1) with
  | none => none
  | some u2 =>
    let u3 : Universe F n := { u2 with particles := fun i => applyAccelerations (u2.particles i) }
    some (u3, List.ofFn fun i => ((u3.particles i).inertialAcceleration, (u3.particles i).dAngularMomentumDt))

/-- What IAS15 has between two iterations: the universe, the arrays of every particle, the times. -/
structure Ias15Run (F : Type) (n : Nat) where
  world : Universe F n
  arrays : Fin n → Ias15.Particle F
  time : F
  dt : F
  last : F

/-- The components of a particle: its arrays and where it is. -/
def loaded (p : Particle F) (a : Ias15.Particle F) : Ias15.Particle F :=
  ⟨{ a.x with x := p.inertialPosition.x, v := p.inertialVelocity.x, l := p.angularMomentum.x },
   { a.y with x := p.inertialPosition.y, v := p.inertialVelocity.y, l := p.angularMomentum.y },
   { a.z with x := p.inertialPosition.z, v := p.inertialVelocity.z, l := p.angularMomentum.z }⟩

/-- ias15.rs 420-453: an iteration, with or without a historic record. -/
def ias15Iterate [Ias15.FNormal F] (k : Consts F) (m : Models F) (eps2 : F) (roche : Fin n → Fin n → F) (fuel : Nat)
    (record : Bool) (r : Ias15Run F n) : Option (Ias15Run F n) :=
  match (if record then observe k r.time r.world else some r.world) with
  | none => none
  | some u =>
  match Ias15.iterate Ias15.tables (integrateSpin u) (ias15Evaluate k m eps2 roche) fuel
    { particles := List.ofFn fun i => loaded (u.particles i) (r.arrays i), hidden := u, time := r.time, dt := r.dt,
      last := r.last } with
  | none => none
  | some s =>
    some { world := placeAll (Ias15.places s.particles) s.hidden,
           arrays := fun i => s.particles[i.val]?.getD (r.arrays i), time := s.time, dt := s.dt, last := s.last }

/-! ## WHFast -/

/-- The order of the particles in WHFast: the most massive one, then the others in their order. -/
def starFirst (h : Fin n) : List (Fin n) := h :: (List.finRange n).filter fun i => decide (i ≠ h)

/-- The entry of a particle in a list in that order. -/
def entry {A : Type} (h : Fin n) (l : List A) (d : A) (i : Fin n) : A := l[(starFirst h).idxOf i]?.getD d

/-- What WHFast reads of a particle. -/
def keplerBody (p : Particle F) : WHFast.Body F :=
  ⟨p.mass, p.massG, p.inertialPosition, p.inertialVelocity, p.inertialAcceleration⟩

/-- The system of WHFast. -/
def system (u : Universe F n) : WHFast.Sys F :=
  { star := keplerBody (u.particles u.hosts.mostMassive),
    planets := ((List.finRange n).filter fun i => decide (i ≠ u.hosts.mostMassive)).map fun i =>
      keplerBody (u.particles i) }

/-- The universe with the positions, velocities and accelerations of the system. -/
def withSystem (s : WHFast.Sys F) (u : Universe F n) : Universe F n :=
  { u with particles := fun i =>
      let p := u.particles i
      let b := entry u.hosts.mostMassive s.bodies (keplerBody p) i
      { p with inertialPosition := b.position, inertialVelocity := b.velocity, inertialAcceleration := b.acceleration } }

/-- Velocity and angular momentum of a particle. -/
def motionOf (p : Particle F) : WHFast.Motion F := ⟨p.inertialVelocity, p.angularMomentum⟩

/-- The universe with other velocities and angular momenta. -/
def withMotions (l : List (WHFast.Motion F)) (u : Universe F n) : Universe F n :=
  { u with particles := fun i =>
      let p := u.particles i
      let q := entry u.hosts.mostMassive l (motionOf p) i
      { p with inertialVelocity := q.velocity, angularMomentum := q.angular } }

/-- whfast.rs 264-268 and 326-330: gravity between star and planets that Kepler's steps contain. -/
def ignored : WHFast.Coordinates → Ignore
  | .jacobi => .whfastOne
  | .democraticHeliocentric => .whfastTwo
  | .whds => .whfastTwo

/-- whfast.rs 339-350: frame and effects for the motions tried. -/
def whfastEvaluate (k : Consts F) (m : Models F) (eps2 : F) (c : WHFast.Coordinates) (spin : Bool) (time : F) :
    WHFast.Evaluate (Universe F n) F := fun u evolution l =>
  match calculateAdditionalEffects k m eps2 time evolution spin true (ignored c)
    (inertialToHeliocentric (withMotions l u)) with
  | none => none
  | some u1 =>
    some (u1, (starFirst u.hosts.mostMassive).map fun i =>
      ⟨(u1.particles i).inertialAdditionalAcceleration, (u1.particles i).dAngularMomentumDt⟩)

/-- What WHFast has between two iterations: the universe, the compensations (star first) and the time. -/
structure WHFastRun (F : Type) (n : Nat) where
  world : Universe F n
  errors : List (WHFast.Motion F)
  time : F

/-- whfast.rs 321-422 on the universe: velocity dependent forces over half a step. -/
def whfastForced (k : Consts F) (m : Models F) (eps2 : F) (c : WHFast.Coordinates) (half : F) (spin evolution : Bool)
    (r : WHFastRun F n) : Option (WHFastRun F n) :=
  match WHFast.midpoint (whfastEvaluate k m eps2 c spin r.time) half spin evolution r.world
    ((starFirst r.world.hosts.mostMassive).map fun i => motionOf (r.world.particles i)) r.errors with
  | none => none
  | some (u, final, errors) => some { r with world := withMotions final u, errors := errors }

/-- whfast.rs 284: gravity during a step, written to the bodies of the system. -/
def whfastGravity (k : Consts F) (roche : Fin n → Fin n → F) (c : WHFast.Coordinates) (u : Universe F n)
    (s : WHFast.Sys F) : Option (WHFast.Sys F) :=
  match universeGravity k roche (ignored c) (withSystem s u) with
  | none => none
  | some u1 =>
    let a := (starFirst u.hosts.mostMassive).map fun i => (u1.particles i).inertialAcceleration
    some { star := { s.star with acceleration := a[0]?.getD s.star.acceleration },
           planets := s.planets.mapIdx fun j p => { p with acceleration := a[j + 1]?.getD p.acceleration } }

/-- whfast.rs 234-296: an iteration, with or without a historic record. -/
def whfastIterate (k : Consts F) (m : Models F) (eps2 : F) (roche : Fin n → Fin n → F) (c : WHFast.Coordinates)
    (fuel : Nat) (dt half : F) (record : Bool) (r : WHFastRun F n) : Option (WHFastRun F n) :=
  match (if record then observe k r.time r.world else some r.world) with
  | none => none
  | some u =>
  match whfastForced k m eps2 c half (integrateSpin u) true { r with world := u } with
  | none => none
  | some r1 =>
  match WHFast.step c fuel k.g dt half (whfastGravity k roche c r1.world) (system r1.world) with
  | none => none
  | some s =>
  match whfastForced k m eps2 c half (integrateSpin u) false { r1 with world := withSystem s r1.world } with
  | none => none
  | some r2 => some { r2 with time := r.time + dt }

end
end Posidonius.Univ
