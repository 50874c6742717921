import Verif.Model.Particle

/-!
# Stellar wind and disk

/repo/src/effects/wind.rs 59-91 and disk.rs 83-268.
-/

namespace Posidonius.Univ

section
variable {F : Type} [Add F] [Sub F] [Mul F] [Div F] [Neg F] [FOps F]

/-- wind.rs 41-57 `Wind::new`. -/
def Wind.new (interaction : Bool) (kFactor rotationSaturation : F) : Wind F :=
  { interaction := interaction, kFactor := kFactor, rotationSaturation := rotationSaturation,
    rotationSaturation2 := ipow rotationSaturation 2, dAngularMomentumDt := Axes.zero }

/-- wind.rs 61-69. -/
def windInitialize (p : Particle F) : Particle F :=
  if p.wind.interaction then { p with wind := { p.wind with dAngularMomentumDt := Axes.zero } } else p

/-- wind.rs 71-91 for one particle. -/
def windFactor (k : Consts F) (p : Particle F) : Particle F :=
  if p.wind.interaction then
    let threshold := FOps.sqrt p.normSpin2
    let root := FOps.sqrt (p.radius / k.rSun * lit 1 / p.mass)
    let torque (w : F) : F :=
      if leb p.wind.rotationSaturation threshold then
        lit (-1) * p.wind.kFactor * w * p.wind.rotationSaturation2 * root
      else
        lit (-1) * p.wind.kFactor * w * p.normSpin2 * root
    { p with wind := { p.wind with dAngularMomentumDt := ⟨torque p.spin.x, torque p.spin.y, torque p.spin.z⟩ } }
  else p

/-- `if let DiskEffect::CentralBody(disk)`. -/
def DiskEffect.central? : DiskEffect F → Option (DiskProperties F)
  | .central d => some d
  | _ => none

/-- `if let DiskEffect::OrbitingBody`. -/
def DiskEffect.isOrbiting : DiskEffect F → Bool
  | .orbiting => true
  | _ => false

/-- disk.rs 83-97. -/
def diskInitialize {n : Nat} (h : Fin n) (p : Fin n → Particle F) : Fin n → Particle F :=
  match (p h).disk.effect.central? with
  | none => p
  | some _ =>
    mapOthers h (fun _ q =>
        if q.disk.effect.isOrbiting then { q with disk := { q.disk with acceleration := Axes.zero } } else q)
      (mapHost h (fun host => { host with disk := { host.disk with acceleration := Axes.zero } }) p)

/-- disk.rs 99-135. -/
def diskInertialToHeliocentric {n : Nat} (h : Fin n) (p : Fin n → Particle F) : Fin n → Particle F :=
  match (p h).disk.effect.central? with
  | none => p
  | some _ =>
    mapOthers h (fun host q =>
        if q.disk.effect.isOrbiting then
          let position := q.inertialPosition - host.inertialPosition
          let velocity := q.inertialVelocity - host.inertialVelocity
          let v2 := (velocity - host.disk.velocity).norm2
          { q with disk := { q.disk with
              position := position, velocity := velocity, distance := FOps.sqrt position.norm2,
              normVelocity2 := v2, normVelocity := FOps.sqrt v2 } }
        else q)
      (mapHost h (fun host => { host with disk := { host.disk with
          position := Axes.zero, velocity := Axes.zero, distance := lit 0,
          normVelocity := lit 0, normVelocity2 := lit 0 } }) p)

/-- disk.rs 137-154. -/
def diskCopyHeliocentric {n : Nat} (h : Fin n) (p : Fin n → Particle F) : Fin n → Particle F :=
  let copy (q : Particle F) : Particle F := { q with disk := { q.disk with
    position := q.heliocentricPosition, velocity := q.heliocentricVelocity,
    distance := q.heliocentricDistance, normVelocity := q.heliocentricNormVelocity,
    normVelocity2 := q.heliocentricNormVelocity2 } }
  match (p h).disk.effect.central? with
  | none => p
  | some _ => mapOthers h (fun _ q => if q.disk.effect.isOrbiting then copy q else q) (mapHost h copy p)

/-- `f64::min`: the other argument if one is NaN (every comparison is false for NaN). -/
def fmin (x y : F) : F := if ltb y x then y else if eqb x x then x else y

variable [FPow F] [FTrig F]

/-- disk.rs 169-174. -/
def diskTemperature (hostMass distance : F) : F := lit 280 * FPow.powf distance (lit (-1/2)) * hostMass

/-- disk.rs 177-186.  `distance.powi(-1)` is `1 / distance`. -/
def surfaceDensity (d : DiskProperties F) (time distance : F) : F :=
  let initial := d.surfaceDensityNormalization * (lit 1 / distance)
    * FTrig.exp (lit (-1) * distance / d.outerEdgeDistance)
    * (lit 1 - FOps.sqrt (d.innerEdgeDistance / distance))
  if ltb d.innerEdgeDistance distance then initial * FTrig.exp ((-time) / d.lifetime) else lit 0

/-- disk.rs 188-191. -/
def keplerianFrequency (hostMassG distance : F) : F := FOps.sqrt (hostMassG / ipow distance 3)

/-- disk.rs 193-199. -/
def diskViscosity (k : Consts F) (d : DiskProperties F) (hostMass hostMassG distance : F) : F :=
  let soundSpeed2 := k.boltzmann * diskTemperature hostMass distance / (d.meanMolecularWeight * k.massHydrogen)
  d.alpha * soundSpeed2 / keplerianFrequency hostMassG distance

/-- disk.rs 201-205. -/
def gasRadialVelocity (k : Consts F) (d : DiskProperties F) (hostMass hostMassG distance sma : F) : F :=
  lit (-3) * diskViscosity k d hostMass hostMassG distance / (lit 2 * sma)

/-- disk.rs 158-167. -/
def migrationTimescale (k : Consts F) (d : DiskProperties F)
    (time hostMass hostMassG mass distance sma : F) : F :=
  let aDot := gasRadialVelocity k d hostMass hostMassG distance sma
    * fmin (lit 1) (lit 2 * surfaceDensity d time distance * ipow sma 2 / mass)
  (-sma) / aDot

/-- disk.rs 217. -/
def diskSma (host p : Particle F) : F :=
  (p.massG + host.massG) * p.disk.distance
    / (lit 2 * (p.massG + host.massG) - p.disk.distance * p.disk.normVelocity2)

/-- disk.rs 219: the migration timescale of a companion. -/
def companionTimescale (k : Consts F) (time : F) (d : DiskProperties F) (host p : Particle F) : F :=
  migrationTimescale k d time host.mass host.massG p.mass p.disk.distance (diskSma host p)

/-- disk.rs 221-252: the force on a companion with migration timescale `tau`. -/
def diskForce (p : Particle F) (tau : F) : Axes F :=
  let factorMigration := (-p.mass) / tau
  let damping := lit (1/10) * tau
  let factorEccentricity := (-p.mass) * lit 2 / damping
  let factorInclination := (-p.mass) * lit 2 / damping
  let rv := lit 1 / (p.disk.distance * p.disk.distance) * p.disk.position.dot p.disk.velocity
  factorMigration • p.disk.velocity
    + (factorEccentricity * rv) • p.disk.position
    + ⟨lit 0, lit 0, factorInclination * p.disk.velocity.z⟩

/-- disk.rs 215-262 for one companion. -/
def diskStep (k : Consts F) (time : F) (d : DiskProperties F) (host p : Particle F) : Particle F :=
  if p.disk.effect.isOrbiting then
    let tau := companionTimescale k time d host p
    { p with disk := { p.disk with migrationTimescale := tau,
                                   acceleration := (lit 1 / p.mass) • diskForce p tau } }
  else p

/-- disk.rs 253-255: the term of the sum. -/
def diskForceTerm (k : Consts F) (time : F) (d : DiskProperties F) (host p : Particle F) : Axes F :=
  if p.disk.effect.isOrbiting then diskForce p (companionTimescale k time d host p) else Axes.zero

/-- disk.rs 209-271.  The host's acceleration is assigned inside the loop, i.e. not at all without other
bodies. -/
def diskAcceleration {n : Nat} (k : Consts F) (time : F) (h : Fin n) (p : Fin n → Particle F) :
    Fin n → Particle F :=
  match (p h).disk.effect.central? with
  | none => p
  | some d =>
    let total := sumOthers h (diskForceTerm k time d (p h)) p
    let p1 := mapOthers h (diskStep k time d) p
    if (others h).isEmpty then p1
    else mapHost h (fun host => { host with disk := { host.disk with
      acceleration := (lit (-1) * (lit 1 / host.mass)) • total } }) p1

end
end Posidonius.Univ
