import Verif.Model.Flattening
import Verif.Model.Tides

/-!
# Creep tides (coplanar)

/repo/src/effects/tides/creep_coplanar.rs and /repo/src/effects/rotational_flattening/creep_coplanar.rs.
The loop for the eccentric anomaly has fuel; `none` means that it has not ended.
-/

namespace Posidonius

/-- `f64::tan` and `f64::atan`. -/
class FTan (F : Type) where
  tan : F → F
  atan : F → F

namespace Creep
open Posidonius.Univ

section
variable {F : Type} [Add F] [Sub F] [Mul F] [Div F] [Neg F] [FOps F] [FPow F] [FTrig F] [FTan F]

/-- tides/creep_coplanar.rs 509-513: the loop for the eccentric anomaly.  The first comparison,
`10. > precision`, is always true, so the body comes first. -/
def anomalyLoop (e m : F) : Nat → F → Option F
  | 0, _ => none
  | fuel + 1, e0 =>
    let e1 := m + e * FTrig.sin e0
    let difference := FOps.abs (e1 - e0)
    if ltb (lit (1 / 10 ^ 13)) difference then anomalyLoop e m fuel e1 else some e1

/-- tides/creep_coplanar.rs 518-521: from the eccentric to the true anomaly. -/
def trueOfEccentric (e bigE : F) : F :=
  lit 2 * FTan.atan (FPow.powf ((lit 1 + e) / (lit 1 - e)) (lit 1 / lit 2) * FTan.tan (bigE / lit 2))

/-- tides/creep_coplanar.rs 502-526 `calculate_true_anomaly`. -/
def trueAnomaly (fuel : Nat) (e m : F) : Option F :=
  (anomalyLoop e m fuel m).map (trueOfEccentric e)

/-- tides/creep_coplanar.rs 458-473: the coefficients `E_(0,k)`, k = -7 .. 7. -/
def cayley0 (e : F) : List F :=
  let e2 := ipow e 2
  let e3 := e * e2
  let e4 := e2 * e2
  let e5 := e4 * e
  let e6 := e5 * e
  let e7 := e6 * e
  let c0 := lit 432091 / lit 30720 * e7
  let c1 := lit 3167 / lit 320 * e6
  let c2 := lit 1773 / lit 256 * e5 - lit 4987 / lit 6144 * e7
  let c3 := lit 77 / lit 16 * e4 + lit 129 / lit 160 * e6
  let c4 := lit 53 / lit 16 * e3 + lit 393 / lit 256 * e5 + lit 24753 / lit 10240 * e7
  let c5 := lit 9 / lit 4 * e2 + lit 7 / lit 4 * e4 + lit 141 / lit 64 * e6
  let c6 := lit 3 / lit 2 * e + lit 27 / lit 16 * e3 - lit 261 / lit 128 * e5 + lit 14309 / lit 6144 * e7
  let c7 := lit 1 + lit 3 / lit 2 * e2 + lit 15 / lit 8 * e4 - lit 35 / lit 16 * e6
  [c0, c1, c2, c3, c4, c5, c6, c7, c6, c5, c4, c3, c2, c1, c0]

/-- tides/creep_coplanar.rs 477-491: the coefficients `E_(2,k)`, k = -7 .. 7. -/
def cayley2 (e : F) : List F :=
  let e2 := ipow e 2
  let e3 := e * e2
  let e4 := e2 * e2
  let e5 := e4 * e
  let e6 := e5 * e
  let e7 := e6 * e
  [lit 12144273 / lit 71680 * e7,
   lit 73369 / lit 720 * e6,
   lit 228347 / lit 3840 * e5 - lit 3071075 / lit 18432 * e7,
   lit 533 / lit 16 * e4 - lit 13827 / lit 160 * e6,
   lit 845 / lit 48 * e3 - lit 32525 / lit 768 * e5 + lit 208225 / lit 6144 * e7,
   lit 17 / lit 2 * e2 - lit 115 / lit 6 * e4 + lit 601 / lit 48 * e6,
   lit 7 / lit 2 * e - lit 123 / lit 16 * e3 + lit 489 / lit 128 * e5 - lit 1763 / lit 2048 * e7,
   lit 1 - lit 5 / lit 2 * e2 + lit 13 / lit 16 * e4 - lit 35 / lit 288 * e6,
   -(lit 1) / lit 2 * e + lit 1 / lit 16 * e3 - lit 5 / lit 384 * e5 - lit 143 / lit 18432 * e7,
   lit 0,
   lit 1 / lit 48 * e3 + lit 11 / lit 768 * e5 + lit 313 / lit 30720 * e7,
   lit 1 / lit 24 * e4 + lit 7 / lit 240 * e6,
   lit 81 / lit 1280 * e5 + lit 81 / lit 2048 * e7,
   lit 4 / lit 45 * e6,
   lit 15625 / lit 129024 * e7]

/-- tides/creep_coplanar.rs 264-265. -/
def relaxationFactor (k : Consts F) (primaryMass radius viscosity : F) : F :=
  lit 3 * k.g * primaryMass * primaryMass / (lit 8 * FTrig.pi * ipow radius 4 * viscosity)

/-- tides/creep_coplanar.rs 267-272. -/
def epsilonRhoBar (considerTides : Bool) (a primaryMass companionMass radius : F) : F :=
  if considerTides then lit 15 * companionMass * ipow radius 3 / (lit 4 * primaryMass * ipow a 3) else lit 0

/-- tides/creep_coplanar.rs 273-277. -/
def epsilonZBar (considerFlattening : Bool) (k : Consts F) (primaryMass radius spin : F) : F :=
  if considerFlattening then lit 5 * spin * spin * ipow radius 3 / (lit 4 * k.g * primaryMass) else lit 0

/-- tides/creep_coplanar.rs 282-287. -/
def pseudoSynchronization (gamma n e : F) : F :=
  if ltb gamma n then lit (9 / 10) * n else lit 1 * n + lit 7 * e * e * n

/-- tides/creep_coplanar.rs 289-374: near synchronous rotation; `rho` and `z` are the two mean
epsilons, `mu` the ratio of the companion's mass to the sum. -/
def slowShape (rho z mu gamma n e m : F) : Axes F :=
  let alpha := lit 1 - lit 3 * mu * rho
  let q := n / gamma
  let q2 := ipow q 2
  let e2 := ipow e 2
  let rho0 := rho * (lit 1 + lit (3 / 2) * e2 - lit 4 * q2 * e2 / (lit 1 + alpha * alpha * q2))
  let rhoC := lit 3 * rho * e / (lit 1 + q2)
  let rhoS := lit 3 * rho * e * q / (lit 1 + q2)
  let z0 := rho * (lit (1 / 2) + lit (3 / 4) * e2)
    + z * (lit 1
      + lit 12 * e2 * (lit 1 + alpha * q2) / ((lit 1 + q2) * (lit 1 + alpha * alpha * q2))
      + lit 2 * (lit 1 - alpha) * (lit 1 - alpha) * q2 * e2 / (lit 1 + alpha * alpha * q2))
  let zC := (lit (3 / 2) * rho * e / (lit 1 + q2))
    * (lit 1 - lit 16 * mu * q2 * z / (lit 1 + alpha * alpha * q2))
  let zS := (lit (3 / 2) * rho * e / (lit 1 + q2))
    * (q + lit 8 * mu * q * (lit 1 - alpha * q2) * z / (lit 1 + alpha * alpha * q2))
  let delta0 := (lit 3 * q * e2 / (lit 1 + q2)) * (lit 2 + (lit 1 + alpha) * q2) / (lit 1 + alpha * alpha * q2)
  let deltaC := lit (-2) * q * e / (lit 1 + alpha * alpha * q2)
  let deltaS := lit (-2) * e * q2 * alpha / (lit 1 + alpha * alpha * q2)
  let epRho := rho0 + rhoC * FTrig.cos m + rhoS * FTrig.sin m
  let epZ := z0 + zC * FTrig.cos m + zS * FTrig.sin m
  let delta := delta0 + deltaC * FTrig.cos m + deltaS * FTrig.sin m
  let delta2 := lit 2 * delta
  ⟨epRho * FTrig.cos delta2, epRho * FTrig.sin delta2, epZ⟩

/-- tides/creep_coplanar.rs 404-423: one turn of the loop, `j` is `k as f64`; the sums so far in `s`. -/
def fastTerm (gamma n spin m f : F) (j c0 c2 : F) (s : Axes F) : Axes F :=
  let equatorial := (lit 9 - j) * m - lit 2 * f
  let polar := (lit (-7) + j) * m
  let nu := lit 2 * spin - (lit 9 - j) * n
  ⟨s.x + gamma * c2 / (ipow gamma 2 + ipow nu 2) * (gamma * FTrig.cos equatorial - nu * FTrig.sin equatorial),
   s.y + gamma * c2 / (ipow gamma 2 + ipow nu 2) * (gamma * FTrig.sin equatorial + nu * FTrig.cos equatorial),
   s.z + c0 / (ipow (j - lit 7) 2 * ipow n 2 + ipow gamma 2)
     * (ipow (j - lit 7) 2 * ipow n 2 * FTrig.sin polar + ipow gamma 2 * FTrig.cos polar)⟩

/-- tides/creep_coplanar.rs 396-427: the loop, over `(k, E_(0,k), E_(2,k))`. -/
def fastSums (gamma n spin e m f : F) : Axes F :=
  (((List.range 15).zip ((cayley0 e).zip (cayley2 e)))).foldl
    (fun s q => fastTerm gamma n spin m f (lit (q.1 : ℚ)) q.2.1 q.2.2 s) Axes.zero

/-- tides/creep_coplanar.rs 375-442: fast rotation. -/
def fastShape (rho z gamma n spin e m f : F) : Axes F :=
  let s := fastSums gamma n spin e m f
  ⟨s.x * rho, s.y * rho, s.z * rho / lit 2 + z⟩

/-- tides/creep_coplanar.rs 378-380: the true anomaly made positive. -/
def positiveAnomaly (f : F) : F := if ltb f (lit 0) then f + lit 2 * FTrig.pi else f

/-- tides/creep_coplanar.rs 225-443 `calculate_particle_shape`. -/
def particleShape (k : Consts F) (fuel : Nat) (a e m period primaryMass companionMass radius viscosity spin : F)
    (considerTides considerFlattening : Bool) : Option (Axes F) :=
  let gamma := relaxationFactor k primaryMass radius viscosity
  let n := lit 2 * FTrig.pi / period
  let rho := epsilonRhoBar considerTides a primaryMass companionMass radius
  let z := epsilonZBar considerFlattening k primaryMass radius spin
  if ltb spin (pseudoSynchronization gamma n e) then
    some (slowShape rho z (companionMass / (primaryMass + companionMass)) gamma n e m)
  else
    (trueAnomaly fuel e m).map fun f => fastShape rho z gamma n spin e m (positiveAnomaly f)

/-- tides/creep_coplanar.rs 172-181. -/
def orbitingViscosity : TidesEffect F → F
  | .orbiting (.creepCoplanar v) => v
  | _ => lit 0

/-- tides/creep_coplanar.rs 197-206. -/
def centralViscosity : TidesEffect F → F
  | .central (.creepCoplanar v) => v
  | _ => lit 0

/-- tides/creep_coplanar.rs 150-223 `calculate_creep_coplanar_shape`.  It is also called for the
flattening, with the coordinates and the viscosity of the tides. -/
def shape (k : Consts F) (fuel : Nat) (host p : Particle F) (considerTides considerFlattening centralBody : Bool) :
    Option (Axes F) :=
  let el := Tools.keplerianElements (host.massG + p.massG) p.tides.position p.tides.velocity
  if centralBody then
    particleShape k fuel el.semiMajorAxis el.eccentricity el.meanAnomaly el.orbitalPeriod host.mass p.mass
      host.radius (centralViscosity host.tides.effect) host.spin.z considerTides considerFlattening
  else
    particleShape k fuel el.semiMajorAxis el.eccentricity el.meanAnomaly el.orbitalPeriod p.mass host.mass
      p.radius (orbitingViscosity p.tides.effect) p.spin.z considerTides considerFlattening

/-- tides/creep_coplanar.rs 43-54: the torque on a companion, from its stored shape. -/
def companionTorque (k : Consts F) (host p : Particle F) : Axes F :=
  ⟨lit 0, lit 0,
   lit 3 / lit 5 * k.g * p.mass * host.mass * p.radius * p.radius * p.tides.shape.y / ipow p.tides.distance 3⟩

/-- tides/creep_coplanar.rs 23-42: the torque on the host by a companion. -/
def hostTorque (k : Consts F) (fuel : Nat) (host p : Particle F) : Option (Axes F) :=
  (shape k fuel host p true false true).map fun s =>
    ⟨lit 0, lit 0, lit 3 / lit 5 * k.g * host.mass * p.mass * host.radius * host.radius * s.y / ipow p.tides.distance 3⟩

/-- tides/creep_coplanar.rs 59-120 `calculate_tidal_force`. -/
def force (k : Consts F) (host p : Particle F) : Axes F :=
  let d := p.tides.distance
  let d4 := ipow d 4
  let r := p.tides.position
  let s := p.tides.shape
  let radial := lit (-9 / 10) * k.g * p.mass * host.mass * p.radius * p.radius / d4 * s.x
    - lit 3 * k.g * p.mass * host.mass * p.radius * p.radius / (lit 5 * d4) * s.z
  ⟨r.x / d * radial - lit 3 * k.g * r.y * p.mass * host.mass * p.radius * p.radius / (lit 5 * d4 * d) * s.y,
   r.y / d * radial + lit 3 * k.g * r.x * p.mass * host.mass * p.radius * p.radius / (lit 5 * d4 * d) * s.y,
   lit 0⟩

/-- rotational_flattening/creep_coplanar.rs 55-66. -/
def companionFlatteningTorque (k : Consts F) (host p : Particle F) : Axes F :=
  ⟨lit 0, lit 0,
   lit 3 / lit 5 * k.g * p.mass * host.mass * p.radius * p.radius * p.flattening.shape.y
     / ipow p.flattening.distance 3⟩

/-- rotational_flattening/creep_coplanar.rs 41-54. -/
def hostFlatteningTorque (k : Consts F) (fuel : Nat) (host p : Particle F) : Option (Axes F) :=
  (shape k fuel host p false true true).map fun s =>
    ⟨lit 0, lit 0,
     lit 3 / lit 5 * k.g * host.mass * p.mass * host.radius * host.radius * s.y / ipow p.flattening.distance 3⟩

/-- rotational_flattening/creep_coplanar.rs 72-104. -/
def flatteningForce (k : Consts F) (host p : Particle F) : Axes F :=
  let d := p.flattening.distance
  let d4 := ipow d 4
  let r := p.flattening.position
  let c := lit (-3) * k.g * p.mass * host.mass * p.radius * p.radius / (lit 5 * d4) * p.flattening.shape.z
  ⟨r.x / d * c, r.y / d * c, lit 0⟩

end
end Creep
end Posidonius
