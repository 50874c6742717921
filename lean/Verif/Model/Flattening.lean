import Verif.Model.Particle

/-!
# Rotational flattening

/repo/src/effects/rotational_flattening/common.rs 93-237 and oblate_spheroid.rs.  The creep functions enter
the dispatch as arbitrary functions (`FlatteningModels`).
-/

namespace Posidonius.Univ

section
variable {F : Type} [Add F] [Sub F] [Mul F] [Div F] [Neg F] [FOps F]

/-- creep_coplanar.rs of the flattening: torque and force. -/
structure FlatteningModels (F : Type) where
  creepTorque : Particle F → Particle F → Bool → Axes F
  creepForce : Particle F → Particle F → Axes F

/-- `if let RotationalFlatteningEffect::OrbitingBody(_)`. -/
def FlatteningEffect.isOrbiting : FlatteningEffect F → Bool
  | .orbiting _ => true
  | _ => false

/-- `if let RotationalFlatteningEffect::CentralBody(_)`. -/
def FlatteningEffect.isCentral : FlatteningEffect F → Bool
  | .central _ => true
  | _ => false

/-- oblate_spheroid.rs 26-34: the Love number of the host. -/
def FlatteningEffect.hostLoveNumber : FlatteningEffect F → F
  | .central (.oblateSpheroid k) => k
  | _ => lit 0

/-- oblate_spheroid.rs 21-50 for one companion, `central_body` true. -/
def oblateStarStep (host p : Particle F) : Particle F :=
  match p.flattening.effect with
  | .orbiting (.oblateSpheroid _) =>
    let factor := p.mass * host.flattening.effect.hostLoveNumber * host.normSpin2 * ipow host.radius 5 / lit 6
    let orth := lit (-6) * factor * p.flattening.rDotStellarSpin
      / (host.normSpin2 * ipow p.flattening.distance 5)
    { p with flattening := { p.flattening with factorStar := factor, orthogonalStar := orth } }
  | _ => p

/-- oblate_spheroid.rs 21-50 for one companion, `central_body` false. -/
def oblatePlanetStep (host p : Particle F) : Particle F :=
  match p.flattening.effect with
  | .orbiting (.oblateSpheroid loveNumber) =>
    let factor := host.mass * loveNumber * p.normSpin2 * ipow p.radius 5 / lit 6
    let orth := lit (-6) * factor * p.flattening.rDotPlanetarySpin
      / (p.normSpin2 * ipow p.flattening.distance 5)
    { p with flattening := { p.flattening with factorPlanet := factor, orthogonalPlanet := orth } }
  | _ => p

/-- oblate_spheroid.rs 12-19. -/
def flatteningOrthogonal {n : Nat} (h : Fin n) (p : Fin n → Particle F) : Fin n → Particle F :=
  mapOthers h oblatePlanetStep (mapOthers h oblateStarStep p)

/-- oblate_spheroid.rs 52-61 for one companion. -/
def flatteningRadialStep (host p : Particle F) : Particle F :=
  if p.flattening.effect.isOrbiting then
    let f := p.flattening
    let radial := lit (-3) / ipow f.distance 5 * (f.factorPlanet + f.factorStar)
      + lit 15 / ipow f.distance 7
        * (f.factorStar * f.rDotStellarSpin * f.rDotStellarSpin / host.normSpin2
          + f.factorPlanet * f.rDotPlanetarySpin * f.rDotPlanetarySpin / p.normSpin2)
    { p with flattening := { p.flattening with radial := radial } }
  else p

/-- oblate_spheroid.rs 52-61. -/
def flatteningRadial {n : Nat} (h : Fin n) (p : Fin n → Particle F) : Fin n → Particle F :=
  mapOthers h flatteningRadialStep p

/-- oblate_spheroid.rs 63-83. -/
def oblateTorque (host p : Particle F) (centralBody : Bool) : Axes F :=
  let spin := if centralBody then host.spin else p.spin
  let orth := if centralBody then p.flattening.orthogonalStar else p.flattening.orthogonalPlanet
  orth • p.flattening.position.cross spin

/-- oblate_spheroid.rs 85-99 (a force, in spite of the name of the function). -/
def oblateForce (host p : Particle F) : Axes F :=
  p.flattening.radial • p.flattening.position
    + p.flattening.orthogonalPlanet • p.spin
    + p.flattening.orthogonalStar • host.spin

/-- common.rs 93-121. -/
def flatteningInitialize {n : Nat} (h : Fin n) (p : Fin n → Particle F) : Fin n → Particle F :=
  if (p h).flattening.effect.isCentral then
    mapOthers h (fun host q =>
        if q.flattening.effect.isOrbiting then
          { q with flattening := { q.flattening with
              rDotStellarSpin := q.flattening.position.dot host.spin,
              rDotPlanetarySpin := q.flattening.position.dot q.spin,
              acceleration := Axes.zero, dAngularMomentumDt := Axes.zero } }
        else q)
      (mapHost h (fun host => { host with flattening := { host.flattening with
          rDotStellarSpin := lit 0, rDotPlanetarySpin := lit 0,
          acceleration := Axes.zero, dAngularMomentumDt := Axes.zero } }) p)
  else p

/-- common.rs 123-147. -/
def flatteningInertialToHeliocentric {n : Nat} (h : Fin n) (p : Fin n → Particle F) : Fin n → Particle F :=
  if (p h).flattening.effect.isCentral then
    mapOthers h (fun host q =>
        if q.flattening.effect.isOrbiting then
          let position := q.inertialPosition - host.inertialPosition
          { q with flattening := { q.flattening with
              position := position, velocity := q.inertialVelocity - host.inertialVelocity,
              distance := FOps.sqrt position.norm2 } }
        else q)
      (mapHost h (fun host => { host with flattening := { host.flattening with
          position := Axes.zero, velocity := Axes.zero, distance := lit 0 } }) p)
  else p

/-- common.rs 149-162. -/
def flatteningCopyHeliocentric {n : Nat} (h : Fin n) (p : Fin n → Particle F) : Fin n → Particle F :=
  let copy (q : Particle F) : Particle F := { q with flattening := { q.flattening with
    position := q.heliocentricPosition, velocity := q.heliocentricVelocity,
    distance := q.heliocentricDistance } }
  if (p h).flattening.effect.isCentral then
    mapOthers h (fun _ q => if q.flattening.effect.isOrbiting then copy q else q) (mapHost h copy p)
  else p

/-- The dispatch of common.rs 172-175 and 189-192. -/
def flatteningTorque (m : FlatteningModels F) (model : FlatteningModel F) (host p : Particle F)
    (centralBody : Bool) : Axes F :=
  match model with
  | .oblateSpheroid _ => oblateTorque host p centralBody
  | .creepCoplanar _ => m.creepTorque host p centralBody

/-- common.rs 169-183 for one companion. -/
def companionFlatteningDL (m : FlatteningModels F) (host p : Particle F) : Particle F :=
  match p.flattening.effect with
  | .orbiting model =>
    { p with flattening := { p.flattening with
        dAngularMomentumDt := (lit (-1) : F) • flatteningTorque m model host p false } }
  | _ => p

/-- common.rs 185-199: the contribution of one companion to the host's torque. -/
def hostFlatteningDLTerm (m : FlatteningModels F) (host p : Particle F) : Axes F :=
  match host.flattening.effect with
  | .central model => (lit (-1) : F) • flatteningTorque m model host p true
  | _ => Axes.zero

/-- common.rs 166-204. -/
def flatteningDL {n : Nat} (m : FlatteningModels F) (h : Fin n) (p : Fin n → Particle F) :
    Fin n → Particle F :=
  let p1 := mapOthers h (companionFlatteningDL m) p
  let total := sumOthers h (hostFlatteningDLTerm m (p1 h)) p1
  mapHost h (fun host => { host with flattening := { host.flattening with dAngularMomentumDt := total } }) p1

/-- The dispatch of common.rs 214-217. -/
def flatteningForce (m : FlatteningModels F) (model : FlatteningModel F) (host p : Particle F) : Axes F :=
  match model with
  | .oblateSpheroid _ => oblateForce host p
  | .creepCoplanar _ => m.creepForce host p

/-- common.rs 212-221: the force on one companion. -/
def companionFlatteningForce (m : FlatteningModels F) (host p : Particle F) : Axes F :=
  match p.flattening.effect with
  | .orbiting model => flatteningForce m model host p
  | _ => Axes.zero

/-- common.rs 222-227. -/
def companionFlatteningAcceleration (m : FlatteningModels F) (host p : Particle F) : Particle F :=
  match p.flattening.effect with
  | .orbiting model =>
    { p with flattening := { p.flattening with
        acceleration := (lit 1 / p.mass) • flatteningForce m model host p } }
  | _ => p

/-- common.rs 206-242. -/
def flatteningAcceleration {n : Nat} (m : FlatteningModels F) (h : Fin n) (p : Fin n → Particle F) :
    Fin n → Particle F :=
  let total := sumOthers h (companionFlatteningForce m (p h)) p
  let p1 := mapOthers h (companionFlatteningAcceleration m) p
  mapHost h (fun host => { host with flattening := { host.flattening with
    acceleration := (lit (-1) * (lit 1 / host.mass)) • total } }) p1

end
end Posidonius.Univ
