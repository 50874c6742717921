import Verif.Model.Particle
import Verif.Model.Tools

/-!
# Tides

/repo/src/effects/tides/common.rs and constant_time_lag.rs.  The creep and Kaula models enter the dispatch
of common.rs as arbitrary functions (`OtherModels`).
-/

namespace Posidonius.Univ
open Evolution (EvolutionType)

section
variable {F : Type} [Add F] [Sub F] [Mul F] [Div F] [Neg F] [FOps F]

/-- The creep and Kaula functions called by common.rs: `calculate_torque_due_to_tides(host, particle,
central_body)` and `calculate_tidal_force`. -/
structure OtherModels (F : Type) where
  creepTorque : Particle F → Particle F → Bool → Axes F
  creepForce : Particle F → Particle F → Axes F
  kaulaTorque : Particle F → Particle F → Bool → Axes F
  kaulaForce : Particle F → Particle F → Bool → Axes F

/-- `HashMap<usize, f64>`: a partial function. -/
abbrev Table (F : Type) := Nat → Option F

/-- constants.rs. -/
def maxParticles : Nat := 10

/-- constant_time_lag.rs 144-147. -/
def setPairFactor (t : Table F) (id dependsOnId : Nat) (value : F) : Table F :=
  let key := id * maxParticles + dependsOnId
  fun k => if k = key then some value else t k

/-- constant_time_lag.rs 149-152. -/
def removePairFactor (t : Table F) (id dependsOnId : Nat) : Table F :=
  let key := id * maxParticles + dependsOnId
  fun k => if k = key then none else t k

/-- The pattern `BolmontMathis2016(_) | GalletBolmont2017(_) | LeconteChabrier2013(true)`. -/
def hasDynamicalTide : EvolutionType → Bool
  | .bolmontMathis2016 | .galletBolmont2017 | .leconteChabrier2013 true => true
  | _ => false

/-- constant_time_lag.rs 154-165. -/
def getPairFactorOrElse (t : Table F) (id dependsOnId : Nat) (evolution : EvolutionType) (scaled : F) : F :=
  let key := id * maxParticles + dependsOnId
  if hasDynamicalTide evolution then
    match t key with
    | some value => value
    | none => scaled
  else scaled

/-- `if let TidesEffect::OrbitingBody(_)`. -/
def TidesEffect.isOrbiting : TidesEffect F → Bool
  | .orbiting _ => true
  | _ => false

/-- `if let TidesEffect::CentralBody(_)`. -/
def TidesEffect.isCentral : TidesEffect F → Bool
  | .central _ => true
  | _ => false

/-- `OrbitingBody(ConstantTimeLag(params))`: (dissipation factor, scale, Love number). -/
def TidesEffect.orbitingCtl : TidesEffect F → Option (F × F × F)
  | .orbiting (.constantTimeLag s sc k) => some (s, sc, k)
  | _ => none

/-- constant_time_lag.rs 32-40: `(scale, factor)` of the host. -/
def TidesEffect.hostScaleAndFactor : TidesEffect F → F × F
  | .central (.constantTimeLag s sc _) => (sc, s)
  | _ => (lit 0, lit 0)

/-- constant_time_lag.rs 272-280. -/
def TidesEffect.hostLoveNumber : TidesEffect F → F
  | .central (.constantTimeLag _ _ k) => k
  | _ => lit 0

/-- common.rs 103-141: the tidal quantities of a new particle. -/
def Tides.new (effect : TidesEffect F) : Tides F :=
  let scaled := match effect with
    | .central (.constantTimeLag s sc _) | .orbiting (.constantTimeLag s sc _) => sc * s
    | _ => lit 0
  { effect := effect, distance := lit 0, radialVelocity := lit 0, scaledDissipationFactor := scaled,
    rDotStellarSpin := lit 0, rDotPlanetarySpin := lit 0, orthogonalStellar := lit 0,
    orthogonalPlanetary := lit 0, radial := lit 0, radialDissipativePlanet := lit 0, shape := Axes.zero,
    denergyDt := lit 0, lagAngle := lit 0, acceleration := Axes.zero, dAngularMomentumDt := Axes.zero,
    position := Axes.zero, velocity := Axes.zero }

/-- constant_time_lag.rs 57-60, 107-110: the mean motion of the orbit. -/
def meanMotion [FPow F] (host p : Particle F) : F :=
  let gm := host.massG + p.massG
  let qe := Tools.perihelionDistanceAndEccentricity gm p.tides.position p.tides.velocity
  FOps.sqrt gm * FPow.powf (qe.1 / (lit 1 - qe.2)) (lit (-3/2))

/-- constant_time_lag.rs 65-77, 115-127. -/
def dynamicalFactor (k : Consts F) (half scale radius lagAngle dissipationFactor : F) : F :=
  let half' := if ltb half k.smoothing then k.smoothing else half
  let inverse := lit 1 / half'
  scale * (lit 2 * k.g / (lit 3 * ipow radius 5) * lagAngle * inverse + dissipationFactor)

/-- constant_time_lag.rs 29-86: one companion. -/
def planetDependentStep [FPow F] (k : Consts F) (host p : Particle F) (t : Table F) : Table F :=
  match p.tides.effect.orbitingCtl with
  | none => t
  | some _ =>
    let hostNormSpin := FOps.sqrt host.normSpin2
    let sf := host.tides.effect.hostScaleAndFactor
    let half := FOps.abs (hostNormSpin - meanMotion host p)
    if ltb half hostNormSpin then
      setPairFactor t host.id p.id (dynamicalFactor k half sf.1 host.radius host.tides.lagAngle sf.2)
    else
      removePairFactor t host.id p.id

/-- constant_time_lag.rs 25-92. -/
def planetDependent [FPow F] {n : Nat} (k : Consts F) (h : Fin n) (p : Fin n → Particle F)
    (t : Table F) : Table F :=
  if hasDynamicalTide (p h).evolution then
    (others h).foldl (fun t i => planetDependentStep k (p h) (p i) t) t
  else t

/-- constant_time_lag.rs 95-139: one companion.  Line 132 removes the pair (host, companion). -/
def hostDependentStep [FPow F] (k : Consts F) (host p : Particle F) (t : Table F) : Table F :=
  if hasDynamicalTide p.evolution then
    match p.tides.effect.orbitingCtl with
    | none => t
    | some (factor, scale, _) =>
      let normSpin := FOps.sqrt p.normSpin2
      let half := FOps.abs (normSpin - meanMotion host p)
      if ltb half normSpin then
        setPairFactor t p.id host.id (dynamicalFactor k half scale p.radius p.tides.lagAngle factor)
      else
        removePairFactor t host.id p.id
  else t

/-- constant_time_lag.rs 94-142. -/
def hostDependent [FPow F] {n : Nat} (k : Consts F) (h : Fin n) (p : Fin n → Particle F)
    (t : Table F) : Table F :=
  (others h).foldl (fun t i => hostDependentStep k (p h) (p i) t) t

/-- constant_time_lag.rs 20-23. -/
def pairFactors [FPow F] {n : Nat} (k : Consts F) (h : Fin n) (p : Fin n → Particle F)
    (t : Table F) : Table F :=
  hostDependent k h p (planetDependent k h p t)

/-- constant_time_lag.rs 171-204. -/
def ctlTorque (host p : Particle F) (centralBody : Bool) : Axes F :=
  let spin := if centralBody then host.spin else p.spin
  let rscal := if centralBody then p.tides.rDotStellarSpin else p.tides.rDotPlanetarySpin
  let orth := if centralBody then p.tides.orthogonalStellar else p.tides.orthogonalPlanetary
  let d := p.tides.distance
  orth • (d • spin - (rscal • p.tides.position).sdiv d - (lit 1 / d) • p.tides.position.cross p.tides.velocity)

/-- The dissipation factor of the host for the pair (constant_time_lag.rs 234, 289). -/
def hostSigma (t : Table F) (host p : Particle F) : F :=
  getPairFactorOrElse t host.id p.id host.evolution host.tides.scaledDissipationFactor

/-- The dissipation factor of the companion for the pair (constant_time_lag.rs 245, 290). -/
def particleSigma (t : Table F) (host p : Particle F) : F :=
  getPairFactorOrElse t p.id host.id p.evolution p.tides.scaledDissipationFactor

/-- constant_time_lag.rs 216-264 for one companion, `central_body` true. -/
def orthogonalStellarStep (t : Table F) (host p : Particle F) : Particle F :=
  match p.tides.effect.orbitingCtl with
  | none => p
  | some _ =>
    let component :=
      lit (9/2) * ipow p.mass 2 * ipow host.radius 10 * hostSigma t host p / ipow p.tides.distance 7
    { p with tides := { p.tides with orthogonalStellar := component } }

/-- constant_time_lag.rs 216-264 for one companion, `central_body` false. -/
def orthogonalPlanetaryStep (t : Table F) (host p : Particle F) : Particle F :=
  match p.tides.effect.orbitingCtl with
  | none => p
  | some _ =>
    let component :=
      lit (9/2) * ipow host.mass 2 * ipow p.radius 10 * particleSigma t host p / ipow p.tides.distance 7
    { p with tides := { p.tides with orthogonalPlanetary := component } }

/-- constant_time_lag.rs 206-214. -/
def orthogonalComponent {n : Nat} (t : Table F) (h : Fin n) (p : Fin n → Particle F) : Fin n → Particle F :=
  mapOthers h (orthogonalPlanetaryStep t) (mapOthers h (orthogonalStellarStep t) p)

/-- constant_time_lag.rs 266-307 for one companion. -/
def radialStep (k : Consts F) (t : Table F) (host p : Particle F) : Particle F :=
  match p.tides.effect.orbitingCtl with
  | none => p
  | some (_, _, loveNumber) =>
    let hostMass2 := host.mass * host.mass
    let particleMass2 := p.mass * p.mass
    let conservative := lit (-3) * k.g / ipow p.tides.distance 7
      * (particleMass2 * ipow host.radius 5 * host.tides.effect.hostLoveNumber
        + hostMass2 * ipow p.radius 5 * loveNumber)
    let factor1 := lit (-27/2) * p.tides.radialVelocity / ipow p.tides.distance 8
    let term1 := particleMass2 * ipow host.radius 10 * hostSigma t host p
    let term2 := hostMass2 * ipow p.radius 10 * particleSigma t host p
    let pointMass := factor1 * term2
    { p with tides := { p.tides with radialDissipativePlanet := pointMass,
                                     radial := conservative + (pointMass + factor1 * term1) } }

/-- constant_time_lag.rs 266-307. -/
def radialComponent {n : Nat} (k : Consts F) (t : Table F) (h : Fin n) (p : Fin n → Particle F) :
    Fin n → Particle F :=
  mapOthers h (radialStep k t) p

/-- constant_time_lag.rs 309-332. -/
def ctlForce (host p : Particle F) : Axes F :=
  let d := p.tides.distance
  let factor3 := p.tides.radial
    + (p.tides.orthogonalStellar + p.tides.orthogonalPlanetary) * p.tides.radialVelocity / d
  (factor3 • p.tides.position).sdiv d
    + (p.tides.orthogonalStellar / d) • (host.spin.cross p.tides.position - p.tides.velocity)
    + (p.tides.orthogonalPlanetary / d) • (p.spin.cross p.tides.position - p.tides.velocity)

/-- common.rs 143-170. -/
def tidesInitialize {n : Nat} (h : Fin n) (p : Fin n → Particle F) : Fin n → Particle F :=
  if (p h).tides.effect.isCentral then
    mapOthers h (fun host q =>
        if q.tides.effect.isOrbiting then
          { q with tides := { q.tides with
              rDotStellarSpin := q.tides.position.dot host.spin,
              rDotPlanetarySpin := q.tides.position.dot q.spin,
              acceleration := Axes.zero, dAngularMomentumDt := Axes.zero } }
        else q)
      (mapHost h (fun host => { host with tides := { host.tides with
          rDotStellarSpin := lit 0, rDotPlanetarySpin := lit 0,
          acceleration := Axes.zero, dAngularMomentumDt := Axes.zero } }) p)
  else p

/-- common.rs 172-200. -/
def tidesInertialToHeliocentric {n : Nat} (h : Fin n) (p : Fin n → Particle F) : Fin n → Particle F :=
  if (p h).tides.effect.isCentral then
    mapOthers h (fun host q =>
        if q.tides.effect.isOrbiting then
          let position := q.inertialPosition - host.inertialPosition
          let velocity := q.inertialVelocity - host.inertialVelocity
          let distance := FOps.sqrt position.norm2
          { q with tides := { q.tides with
              position := position, velocity := velocity, distance := distance,
              radialVelocity := position.dot velocity / distance } }
        else q)
      (mapHost h (fun host => { host with tides := { host.tides with
          position := Axes.zero, velocity := Axes.zero, distance := lit 0, radialVelocity := lit 0 } }) p)
  else p

/-- common.rs 202-217. -/
def tidesCopyHeliocentric {n : Nat} (h : Fin n) (p : Fin n → Particle F) : Fin n → Particle F :=
  let copy (q : Particle F) : Particle F := { q with tides := { q.tides with
    position := q.heliocentricPosition, velocity := q.heliocentricVelocity,
    distance := q.heliocentricDistance, radialVelocity := q.heliocentricRadialVelocity } }
  if (p h).tides.effect.isCentral then
    mapOthers h (fun _ q => if q.tides.effect.isOrbiting then copy q else q) (mapHost h copy p)
  else p

/-- The `match tidal_model` of common.rs 229-233 and 245-249. -/
def tidalTorque (m : OtherModels F) (model : TidalModel F) (host p : Particle F) (centralBody : Bool) :
    Axes F :=
  match model with
  | .constantTimeLag _ _ _ => ctlTorque host p centralBody
  | .creepCoplanar _ => m.creepTorque host p centralBody
  | .kaula => m.kaulaTorque host p centralBody

/-- common.rs 226-239 for one companion. -/
def companionTidalDL (m : OtherModels F) (host p : Particle F) : Particle F :=
  match p.tides.effect with
  | .orbiting model =>
    { p with tides := { p.tides with dAngularMomentumDt := (lit (-1) : F) • tidalTorque m model host p false } }
  | _ => p

/-- common.rs 241-255: the contribution of one companion to the host's torque. -/
def hostTidalDLTerm (m : OtherModels F) (host p : Particle F) : Axes F :=
  match host.tides.effect with
  | .central model => (lit (-1) : F) • tidalTorque m model host p true
  | _ => Axes.zero

/-- common.rs 223-261.  For a host that is not a central body the code adds nothing to the zero sum; here
zeros are added instead (the same number). -/
def tidalDL {n : Nat} (m : OtherModels F) (h : Fin n) (p : Fin n → Particle F) : Fin n → Particle F :=
  let p1 := mapOthers h (companionTidalDL m) p
  let total := sumOthers h (hostTidalDLTerm m (p1 h)) p1
  mapHost h (fun host => { host with tides := { host.tides with dAngularMomentumDt := total } }) p1

/-- common.rs 263-279 for one particle. -/
def denergyDt (p : Particle F) : F :=
  let t := p.tides
  let factor2 := t.orthogonalPlanetary / t.distance
  let power := (lit 1 / t.distance * (t.radialDissipativePlanet + factor2 * t.radialVelocity))
      * t.position.dot t.velocity
    + factor2 * (p.spin.cross t.position - t.velocity).dot t.velocity
  (-power) - t.dAngularMomentumDt.dot p.spin

/-- common.rs 263-309. -/
def calculateDenergyDt {n : Nat} (h : Fin n) (p : Fin n → Particle F) : Fin n → Particle F :=
  mapOthers h (fun _ q =>
    if q.tides.effect.isOrbiting then { q with tides := { q.tides with denergyDt := denergyDt q } } else q) p

/-- The `match tidal_model` of common.rs 319-323. -/
def tidalForce (m : OtherModels F) (model : TidalModel F) (host p : Particle F) : Axes F :=
  match model with
  | .constantTimeLag _ _ _ => ctlForce host p
  | .creepCoplanar _ => m.creepForce host p
  | .kaula => m.kaulaForce host p false

/-- common.rs 318-333: the force on one companion (none for bodies that do not orbit tidally). -/
def companionTidalForce (m : OtherModels F) (host p : Particle F) : Axes F :=
  match p.tides.effect with
  | .orbiting model => tidalForce m model host p
  | _ => Axes.zero

/-- common.rs 317-334 for one companion. -/
def companionTidalAcceleration (m : OtherModels F) (host p : Particle F) : Particle F :=
  match p.tides.effect with
  | .orbiting model =>
    { p with tides := { p.tides with acceleration := (lit 1 / p.mass) • tidalForce m model host p } }
  | _ => p

/-- common.rs 351-369: one turn of the loop for a Kaula host, as a pair (host, companion). -/
def kaulaHostStep (m : OtherModels F) (host p : Particle F) : Particle F × Particle F :=
  let force := m.kaulaForce p host true
  ({ host with tides := { host.tides with
      acceleration := host.tides.acceleration + (lit 1 / host.mass) • force } },
   { p with tides := { p.tides with
      acceleration := p.tides.acceleration + (lit (-1) * (lit 1 / p.mass)) • force } })

/-- common.rs 312-370. -/
def tidalAcceleration {n : Nat} (m : OtherModels F) (h : Fin n) (p : Fin n → Particle F) :
    Fin n → Particle F :=
  let total := sumOthers h (companionTidalForce m (p h)) p
  let p1 := mapOthers h (companionTidalAcceleration m) p
  let p2 := mapHost h (fun host => { host with tides := { host.tides with
    acceleration := (lit (-1) * (lit 1 / host.mass)) • total } }) p1
  match (p h).tides.effect with
  | .central .kaula =>
    (others h).foldl (fun q i =>
      let r := kaulaHostStep m (q h) (q i)
      fun j => if j = h then r.1 else if j = i then r.2 else q j) p2
  | _ => p2

end
end Posidonius.Univ
