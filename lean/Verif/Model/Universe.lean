import Verif.Model.Tides
import Verif.Model.Flattening
import Verif.Model.WindDisk
import Verif.Model.Gr

/-!
# The universe: coordinates, spins and additional effects

/repo/src/particles/universe.rs 305-621 and particles/common.rs.

`none` as a result is a panic.  The host indices are `none` when they have the sentinel value
`MAX_PARTICLES + 1` of `find_indices` (no such host): using them is an index error.
-/

namespace Posidonius.Univ
open Evolution (EvolutionType Evolver)
open Gravity (Ignore)

/-- universe.rs 15-37 `Hosts`; `most_massive.tides` etc. are the comparisons of the indices
(universe.rs 996-1003), kept as fields. -/
structure Hosts (n : Nat) where
  mostMassive : Fin n
  tides : Option (Fin n)
  flattening : Option (Fin n)
  gr : Option (Fin n)
  disk : Option (Fin n)
  all : Bool
  mostMassiveTides : Bool
  mostMassiveFlattening : Bool
  mostMassiveGr : Bool
  mostMassiveDisk : Bool

/-- universe.rs 39-47. -/
structure Consider where
  tides : Bool
  flattening : Bool
  gr : Bool
  disk : Bool
  wind : Bool
  evolution : Bool

/-- universe.rs 49-63 without the times and Roche radii (see Model/Gravity). -/
structure Universe (F : Type) (n : Nat) where
  particles : Fin n → Particle F
  evolvers : Fin n → Evolver F
  consider : Consider
  grImplementation : GrImplementation
  hosts : Hosts n
  table : Table F

/-- The creep and Kaula models, as arbitrary functions. -/
structure Models (F : Type) where
  tides : OtherModels F
  flattening : FlatteningModels F
  /-- tides/creep_coplanar.rs `calculate_creep_coplanar_shape(host, particle, true, false, false)` -/
  tideShape : Particle F → Particle F → Axes F
  /-- `calculate_creep_coplanar_shape(host, particle, false, true, false)` -/
  flatteningShape : Particle F → Particle F → Axes F

section
variable {F : Type} [Add F] [Sub F] [Mul F] [Div F] [Neg F] [FOps F] [FPow F] [FTrig F] {n : Nat}

/-! ## Spin and evolution -/

/-- particles/common.rs 3-14 for one particle; `none`: panic. -/
def calculateSpin (p : Particle F) : Option (Particle F) :=
  if eqb p.momentOfInertia (lit 0) then none
  else
    let spin := p.angularMomentum.sdiv p.momentOfInertia
    some { p with spin := spin, normSpin2 := spin.norm2 }

/-- The part of a particle used by evolution.rs. -/
def evolutionPart (p : Particle F) : Evolution.Part F :=
  { mass := p.mass, radius := p.radius, radiusOfGyration2 := p.radiusOfGyration2,
    momentOfInertia := p.momentOfInertia, normSpinVector2 := p.normSpin2, lagAngle := p.tides.lagAngle,
    tides := match p.tides.effect with
      | .central (.constantTimeLag _ _ k) | .orbiting (.constantTimeLag _ _ k) => .constantTimeLag k
      | _ => .other }

/-- Write back what evolution.rs changes. -/
def withEvolution (p : Particle F) (e : Evolution.Part F) : Particle F :=
  { p with radius := e.radius, radiusOfGyration2 := e.radiusOfGyration2,
           momentOfInertia := e.momentOfInertia, tides := { p.tides with lagAngle := e.lagAngle } }

/-- universe.rs 305-316 for one particle: evolve the radius, compute the spin, evolve the lag angle.
The code runs three loops over the particles; each turn touches one particle and its evolver only. -/
def spinAndEvolving (k : Consts F) (time : F) (evolve : Bool) (p : Particle F) (e : Evolver F) :
    Option (Particle F × Evolver F) :=
  if evolve then
    match Evolution.nonSpinDependent time (evolutionPart p) e with
    | none => none
    | some (q, e1) =>
      match calculateSpin (withEvolution p q) with
      | none => none
      | some p1 =>
        match Evolution.spinDependent k.sunDynFreq2 time (evolutionPart p1) e1 with
        | none => none
        | some (q2, e2) => some (withEvolution p1 q2, e2)
  else
    match calculateSpin p with
    | none => none
    | some p1 => some (p1, e)

/-- All particles, or a panic. -/
def traverse {α : Type} (f : Fin n → Option α) : Option (Fin n → α) :=
  if h : ∀ i, (f i).isSome then some (fun i => (f i).get (h i)) else none

/-- universe.rs 305-316. -/
def calculateSpinAndEvolving (k : Consts F) (time : F) (evolution : Bool) (u : Universe F n) :
    Option (Universe F n) :=
  match traverse (fun i =>
      spinAndEvolving k time (evolution && u.consider.evolution) (u.particles i) (u.evolvers i)) with
  | none => none
  | some r => some { u with particles := fun i => (r i).1, evolvers := fun i => (r i).2 }

/-! ## Coordinates -/

/-- universe.rs 321-339 for one particle; line 335 uses the host's heliocentric velocity as it was before
the update. -/
def toHeliocentric (host p : Particle F) : Particle F :=
  let position := p.inertialPosition - host.inertialPosition
  let velocity := p.inertialVelocity - host.inertialVelocity
  let distance := FOps.sqrt position.norm2
  let v2 := (velocity - host.heliocentricVelocity).norm2
  { p with heliocentricPosition := position, heliocentricVelocity := velocity,
           heliocentricDistance := distance, heliocentricRadialVelocity := position.dot velocity / distance,
           heliocentricNormVelocity2 := v2, heliocentricNormVelocity := FOps.sqrt v2 }

/-- universe.rs 340-349. -/
def zeroHeliocentric (host : Particle F) : Particle F :=
  { host with heliocentricPosition := Axes.zero, heliocentricVelocity := Axes.zero,
              heliocentricDistance := lit 0, heliocentricRadialVelocity := lit 0,
              heliocentricNormVelocity2 := lit 0, heliocentricNormVelocity := lit 0 }

/-- universe.rs 318-351.  The code also updates the unused array elements behind `n_particles`. -/
def inertialToHeliocentric (u : Universe F n) : Universe F n :=
  let p := mapOthers u.hosts.mostMassive toHeliocentric u.particles
  { u with particles := mapHost u.hosts.mostMassive zeroHeliocentric p }

/-! ## Initialisation of the effects -/

/-- Apply a function that needs a host index; `none`: index error. -/
def withHost {α : Type} (h : Option (Fin n)) (f : Fin n → α) : Option α :=
  match h with
  | none => none
  | some i => some (f i)

/-- universe.rs 369-386 / 388-417 for one effect: use the heliocentric coordinates if the host is the most
massive body, otherwise compute host centred coordinates (only reached if not all hosts are the most
massive). -/
def initializeEffect (active isMostMassive all : Bool) (mostMassive : Fin n) (host : Option (Fin n))
    (copy convert init : Fin n → (Fin n → Particle F) → (Fin n → Particle F))
    (p : Fin n → Particle F) : Option (Fin n → Particle F) :=
  if active then
    if isMostMassive then some (init mostMassive (copy mostMassive p))
    else if all then some p
    else withHost host (fun h => init h (convert h p))
  else some p

/-- universe.rs 353-426.  The code first handles all effects hosted by the most massive body, then the
others; the effects write different fields, and here each effect is handled in one go. -/
def initializeAll (dL acc : Bool) (u : Universe F n) : Option (Universe F n) :=
  let c := u.consider
  let hs := u.hosts
  let isKidder := u.grImplementation == .kidder1995
  let p0 := if dL && c.wind then fun i => windInitialize (u.particles i) else u.particles
  match initializeEffect ((dL && c.tides) || (acc && c.tides)) hs.mostMassiveTides hs.all hs.mostMassive
      hs.tides tidesCopyHeliocentric tidesInertialToHeliocentric tidesInitialize p0 with
  | none => none
  | some p1 =>
  match initializeEffect ((dL && c.flattening) || (acc && c.flattening)) hs.mostMassiveFlattening hs.all
      hs.mostMassive hs.flattening flatteningCopyHeliocentric flatteningInertialToHeliocentric
      flatteningInitialize p1 with
  | none => none
  | some p2 =>
  match initializeEffect ((dL && c.gr && isKidder) || (acc && c.gr)) hs.mostMassiveGr hs.all
      hs.mostMassive hs.gr grCopyHeliocentric grInertialToHeliocentric grInitialize p2 with
  | none => none
  | some p3 =>
  match initializeEffect (acc && c.disk) hs.mostMassiveDisk hs.all hs.mostMassive hs.disk
      diskCopyHeliocentric diskInertialToHeliocentric diskInitialize p3 with
  | none => none
  | some p4 =>
    let p5 := if acc then fun i => { p4 i with inertialAdditionalAcceleration := Axes.zero } else p4
    some { u with particles := p5 }

/-! ## Additional effects -/

/-- tides/creep_coplanar.rs 129-138: the viscosity, zero for other models. -/
def TidesEffect.viscosity : TidesEffect F → F
  | .central (.creepCoplanar v) | .orbiting (.creepCoplanar v) => v
  | _ => lit 0

/-- rotational_flattening/creep_coplanar.rs 12-21. -/
def FlatteningEffect.viscosity : FlatteningEffect F → F
  | .central (.creepCoplanar v) | .orbiting (.creepCoplanar v) => v
  | _ => lit 0

/-- tides/creep_coplanar.rs 125-148. -/
def tidesShapes (m : Models F) (h : Fin n) (p : Fin n → Particle F) : Fin n → Particle F :=
  mapOthers h (fun host q =>
    if eqb q.tides.effect.viscosity (lit 0) then q
    else { q with tides := { q.tides with shape := m.tideShape host q } }) p

/-- rotational_flattening/creep_coplanar.rs 10-31. -/
def flatteningShapes (m : Models F) (h : Fin n) (p : Fin n → Particle F) : Fin n → Particle F :=
  mapOthers h (fun host q =>
    if eqb q.flattening.effect.viscosity (lit 0) then q
    else { q with flattening := { q.flattening with shape := m.flatteningShape host q } }) p

/-- universe.rs 437-489: tides and flattening, with the tidal host for both. -/
def tidesAndFlattening (k : Consts F) (m : Models F) (dL acc : Bool) (c : Consider) (h : Fin n)
    (p : Fin n → Particle F) (t : Table F) : (Fin n → Particle F) × Table F :=
  if (dL && (c.tides || c.flattening)) || (acc && (c.tides || c.disk || c.flattening || c.gr)) then
    let t1 := pairFactors k h p t
    let p1 := if c.tides then tidesShapes m h (orthogonalComponent t1 h p) else p
    let p2 := if c.flattening then flatteningShapes m h (flatteningOrthogonal h p1) else p1
    let p3 := if acc && c.tides then tidalAcceleration m.tides h (radialComponent k t1 h p2) else p2
    let p4 := if acc && c.flattening then flatteningAcceleration m.flattening h (flatteningRadial h p3) else p3
    let p5 := if dL && c.tides then tidalDL m.tides h p4 else p4
    let p6 := if dL && c.flattening then flatteningDL m.flattening h p5 else p5
    (p6, t1)
  else (p, t)

/-- universe.rs 490-513. -/
def generalRelativity (k : Consts F) (eps2 : F) (ignore : Ignore) (h : Fin n) (p : Fin n → Particle F) :
    Fin n → Particle F :=
  match (p h).gr.effect with
  | .central .kidder1995 => kidder k h p
  | .central .anderson1975 => anderson k eps2 ignore h p
  | .central .newhall1983 => newhall k ignore h p
  | _ => p

/-- universe.rs 587-591. -/
def totalDL (p : Particle F) : Particle F :=
  { p with dAngularMomentumDt := p.tides.dAngularMomentumDt + p.flattening.dAngularMomentumDt
      + p.gr.dAngularMomentumDt + p.wind.dAngularMomentumDt }

/-- universe.rs 542-566. -/
def addAccelerations (c : Consider) (p : Particle F) : Particle F :=
  let a0 := p.inertialAdditionalAcceleration
  let a1 := if c.tides then a0 + p.tides.acceleration else a0
  let a2 := if c.disk then a1 + p.disk.acceleration else a1
  let a3 := if c.flattening then a2 + p.flattening.acceleration else a2
  let a4 := if c.gr then a3 + p.gr.acceleration else a3
  { p with inertialAdditionalAcceleration := a4 }

/-- universe.rs 570-576. -/
def applyAccelerations (p : Particle F) : Particle F :=
  { p with inertialAcceleration := p.inertialAcceleration + p.inertialAdditionalAcceleration }

/-- universe.rs 432-536: the part of `calculate_additional_effects` after `initialize` and
`calculate_spin_and_evolving_quantities`. -/
def effects (k : Consts F) (m : Models F) (eps2 time : F) (dL acc : Bool) (ignore : Ignore)
    (u : Universe F n) : Option (Universe F n) :=
  let c := u.consider
  let isKidder := u.grImplementation == .kidder1995
  let p0 := if dL && c.wind then fun i => windFactor k (u.particles i) else u.particles
  match (if c.tides || c.flattening then
      withHost u.hosts.tides (fun h => tidesAndFlattening k m dL acc c h p0 u.table)
    else some (p0, u.table)) with
  | none => none
  | some (p1, t1) =>
  match (if acc && c.gr then withHost u.hosts.gr (fun h => generalRelativity k eps2 ignore h p1)
    else some p1) with
  | none => none
  | some p2 =>
  match (if acc && c.disk then withHost u.hosts.disk (fun h => diskAcceleration k time h p2)
    else some p2) with
  | none => none
  | some p3 =>
    let p4 := if dL && (c.tides || c.flattening || (c.gr && isKidder) || c.wind)
      then fun i => totalDL (p3 i) else p3
    let p5 := if acc then fun i => addAccelerations c (p4 i) else p4
    some { u with particles := p5, table := t1 }

/-- universe.rs 428-538. -/
def calculateAdditionalEffects (k : Consts F) (m : Models F) (eps2 time : F) (evolution dL acc : Bool)
    (ignore : Ignore) (u : Universe F n) : Option (Universe F n) :=
  match initializeAll dL acc u with
  | none => none
  | some u1 =>
    match calculateSpinAndEvolving k time evolution u1 with
    | none => none
    | some u2 => effects k m eps2 time dL acc ignore u2

/-- universe.rs 616-621. -/
def universeDenergyDt (u : Universe F n) : Option (Universe F n) :=
  withHost u.hosts.tides (fun h => { u with particles := calculateDenergyDt h u.particles })

end
end Posidonius.Univ
