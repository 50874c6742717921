import Verif.Model.Particle
import Verif.Model.Gravity

/-!
# General relativity

/repo/src/effects/general_relativity.rs 86-895.
-/

namespace Posidonius.Univ
open Gravity (Ignore)

section
variable {F : Type} [Add F] [Sub F] [Mul F] [Div F] [Neg F] [FOps F]

/-- `if let GeneralRelativityEffect::OrbitingBody`. -/
def GrEffect.isOrbiting : GrEffect → Bool
  | .orbiting => true
  | _ => false

/-- The implementation of a central body. -/
def GrEffect.implementation? : GrEffect → Option GrImplementation
  | .central i => some i
  | _ => none

/-- general_relativity.rs 86-109. -/
def grInitialize {n : Nat} (h : Fin n) (p : Fin n → Particle F) : Fin n → Particle F :=
  match (p h).gr.effect.implementation? with
  | some .kidder1995 | some .anderson1975 =>
    mapOthers h (fun host q =>
        if q.gr.effect.isOrbiting then
          { q with gr := { q.gr with
              factor := host.massG * q.massG / ipow (host.massG + q.massG) 2,
              acceleration := Axes.zero, dAngularMomentumDt := Axes.zero } }
        else q)
      (mapHost h (fun host => { host with gr := { host.gr with
          factor := lit 0, acceleration := Axes.zero, dAngularMomentumDt := Axes.zero } }) p)
  | _ => p

/-- general_relativity.rs 111-151. -/
def grInertialToHeliocentric {n : Nat} (h : Fin n) (p : Fin n → Particle F) : Fin n → Particle F :=
  match (p h).gr.effect.implementation? with
  | none | some .disabled => p
  | some _ =>
    mapOthers h (fun host q =>
        if q.gr.effect.isOrbiting then
          let position := q.inertialPosition - host.inertialPosition
          let velocity := q.inertialVelocity - host.inertialVelocity
          let distance := FOps.sqrt position.norm2
          let v2 := (velocity - host.gr.velocity).norm2
          { q with gr := { q.gr with
              position := position, velocity := velocity, distance := distance,
              radialVelocity := position.dot velocity / distance,
              normVelocity2 := v2, normVelocity := FOps.sqrt v2 } }
        else q)
      (mapHost h (fun host => { host with gr := { host.gr with
          position := Axes.zero, velocity := Axes.zero, distance := lit 0, radialVelocity := lit 0,
          normVelocity := lit 0, normVelocity2 := lit 0 } }) p)

/-- general_relativity.rs 153-174. -/
def grCopyHeliocentric {n : Nat} (h : Fin n) (p : Fin n → Particle F) : Fin n → Particle F :=
  let copy (q : Particle F) : Particle F := { q with gr := { q.gr with
    position := q.heliocentricPosition, velocity := q.heliocentricVelocity,
    distance := q.heliocentricDistance, radialVelocity := q.heliocentricRadialVelocity,
    normVelocity := q.heliocentricNormVelocity, normVelocity2 := q.heliocentricNormVelocity2 } }
  match (p h).gr.effect.implementation? with
  | none | some .disabled => p
  | some _ => mapOthers h (fun _ q => if q.gr.effect.isOrbiting then copy q else q) (mapHost h copy p)

/-- general_relativity.rs 194-214: the first order acceleration of one companion. -/
def kidderFirstOrder (k : Consts F) (host p : Particle F) : Axes F :=
  let g := p.gr
  let m := host.massG + p.massG
  let d2 := ipow g.distance 2
  let vr2 := ipow g.radialVelocity 2
  let radial := (-m) / (d2 * k.c2)
    * ((lit 1 + lit 3 * g.factor) * g.normVelocity2
      - lit 2 * (lit 2 + g.factor) * m / g.distance
      - lit (3/2) * g.factor * vr2)
  let orth := m / (d2 * k.c2) * lit 2 * (lit 2 - g.factor) * g.radialVelocity * g.normVelocity
  (radial • g.position).sdiv g.distance + (orth • g.velocity).sdiv g.normVelocity

/-- general_relativity.rs 247-275: the second order acceleration of one companion. -/
def kidderSecondOrder (k : Consts F) (host p : Particle F) : Axes F :=
  let g := p.gr
  let m := host.massG + p.massG
  let d2 := ipow g.distance 2
  let v2 := g.normVelocity2
  let v4 := ipow v2 2
  let vr2 := ipow g.radialVelocity 2
  let vr4 := ipow vr2 2
  let eta := g.factor
  let eta2 := ipow eta 2
  let radial := (-m) / (d2 * k.c2)
    * (lit 3 / lit 4 * (lit 12 + lit 29 * eta) * (ipow m 2 / d2)
      + eta * (lit 3 - lit 4 * eta) * v4
      + lit 15 / lit 8 * eta * (lit 1 - lit 3 * eta) * vr4
      - lit 3 / lit 2 * eta * (lit 3 - lit 4 * eta) * vr2 * v2
      - lit (1/2) * eta * (lit 13 - lit 4 * eta) * (m / g.distance) * v2
      - (lit 2 + lit 25 * eta + lit 2 * eta2) * (m / g.distance) * vr2)
  let orth := (-m) / (d2 * k.c2) * lit (-1/2) * g.radialVelocity
    * (eta * (lit 15 + lit 4 * eta) * v2
      - (lit 4 + lit 41 * eta + lit 8 * eta2) * (m / g.distance)
      - lit 3 * eta * (lit 3 + lit 2 * eta) * vr2)
  (radial • g.position).sdiv g.distance + orth • g.velocity

/-- Componentwise product (the code multiplies components in `element1`). -/
def hadamard (a b : Axes F) : Axes F := ⟨a.x * b.x, a.y * b.y, a.z * b.z⟩

/-- `moment_of_inertia * spin`. -/
def rotationalMomentum (p : Particle F) : Axes F := p.momentOfInertia • p.spin

/-- general_relativity.rs 319-371: the spin-orbit acceleration of one companion. -/
def kidderSpinOrbit (k : Consts F) (host p : Particle F) : Axes F :=
  let g := p.gr
  let ss := rotationalMomentum host
  let sp := rotationalMomentum p
  let m := host.mass + p.mass
  let massFactor := (host.mass - p.mass) / m
  let nrm := g.position.sdiv g.distance
  let msf := (massFactor * m) • (sp.sdiv p.mass - ss.sdiv host.mass)
  let element1 := hadamard ((lit 6 : F) • nrm)
    (hadamard (nrm.cross g.velocity) ((lit 2 : F) • (ss + sp) + msf))
  let element2 := g.velocity.cross ((lit 7 : F) • (ss + sp) + (lit 3 : F) • msf)
  let element3 := (lit 3 * g.radialVelocity) • nrm.cross ((lit 3 : F) • (ss + sp) + msf)
  (k.g / k.c2) • (element1 - element2 + element3)

/-- general_relativity.rs 383-388: `mu * (r x v)`. -/
def newtonianOrbitalMomentum (host p : Particle F) : Axes F :=
  (host.mass * p.mass / (host.mass + p.mass)) • p.gr.position.cross p.gr.velocity

/-- general_relativity.rs 390-415: the contribution of one companion to the host's torque. -/
def kidderHostTorque (k : Consts F) (host p : Particle F) : Axes F :=
  let ss := rotationalMomentum host
  let sp := rotationalMomentum p
  let nrm := p.gr.position.sdiv p.gr.distance
  let l := newtonianOrbitalMomentum host p
  let factorMass := lit 2 + lit 3 / lit 2 * p.mass / host.mass
  (k.g / k.c2) • (factorMass • l.cross ss - sp.cross ss + (lit 3 * nrm.dot sp) • nrm.cross ss)

/-- general_relativity.rs 418-444: the torque on a companion. -/
def kidderCompanionTorque (k : Consts F) (host p : Particle F) : Axes F :=
  let ss := rotationalMomentum host
  let sp := rotationalMomentum p
  let nrm := p.gr.position.sdiv p.gr.distance
  let l := newtonianOrbitalMomentum host p
  let factorMass := lit 2 + lit 3 / lit 2 * host.mass / p.mass
  (k.g / k.c2) • (factorMass • l.cross sp - ss.cross sp + (lit 3 * nrm.dot ss) • nrm.cross sp)

/-- A term of the sums of lines 216, 277 and 373: `particle.mass / host.mass * acceleration`. -/
def recoilTerm (a : Particle F → Particle F → Axes F) (host p : Particle F) : Axes F :=
  if p.gr.effect.isOrbiting then (p.mass / host.mass) • a host p else Axes.zero

/-- general_relativity.rs 187-239. -/
def kidderFirst {n : Nat} (k : Consts F) (h : Fin n) (p : Fin n → Particle F) : Fin n → Particle F :=
  let total := sumOthers h (recoilTerm (kidderFirstOrder k) (p h)) p
  mapHost h (fun host => { host with gr := { host.gr with acceleration := (lit (-1) : F) • total } })
    (mapOthers h (fun host q =>
      if q.gr.effect.isOrbiting then
        { q with gr := { q.gr with acceleration := kidderFirstOrder k host q } }
      else q) p)

/-- general_relativity.rs 241-298. -/
def kidderSecond {n : Nat} (k : Consts F) (h : Fin n) (p : Fin n → Particle F) : Fin n → Particle F :=
  let total := sumOthers h (recoilTerm (kidderSecondOrder k) (p h)) p
  mapHost h (fun host => { host with gr := { host.gr with
      acceleration := host.gr.acceleration + (lit (-1) : F) • total } })
    (mapOthers h (fun host q =>
      if q.gr.effect.isOrbiting then
        { q with gr := { q.gr with acceleration := q.gr.acceleration + kidderSecondOrder k host q } }
      else q) p)

/-- The term added to the host's torque in lines 413-415. -/
def hostTorqueTerm (k : Consts F) (host p : Particle F) : Axes F :=
  if p.gr.effect.isOrbiting then kidderHostTorque k host p else Axes.zero

/-- general_relativity.rs 300-456. -/
def kidderThird {n : Nat} (k : Consts F) (h : Fin n) (p : Fin n → Particle F) : Fin n → Particle F :=
  let total := sumOthers h (recoilTerm (kidderSpinOrbit k) (p h)) p
  let torque := sumOthers h (hostTorqueTerm k (p h)) p
  mapHost h (fun host => { host with gr := { host.gr with
      acceleration := host.gr.acceleration + (lit (-1) : F) • total, dAngularMomentumDt := torque } })
    (mapOthers h (fun host q =>
      if q.gr.effect.isOrbiting then
        { q with gr := { q.gr with
            acceleration := q.gr.acceleration + kidderSpinOrbit k host q,
            dAngularMomentumDt := kidderCompanionTorque k host q } }
      else q) p)

/-- general_relativity.rs 177-184. -/
def kidder {n : Nat} (k : Consts F) (h : Fin n) (p : Fin n → Particle F) : Fin n → Particle F :=
  kidderThird k h (kidderSecond k h (kidderFirst k h p))

/-! ## Anderson et al. 1975 -/

/-- general_relativity.rs 641-678: the Newtonian accelerations, with the terms ignored by the integrator
added again.  Line 663-665 subtracts the heliocentric position of the companion from the inertial position
of the host. -/
def newtonianAccelerations {n : Nat} (k : Consts F) (ignore : Ignore) (h : Fin n)
    (p : Fin n → Particle F) : Fin n → Axes F :=
  let start : Fin n → Axes F := fun i => (p i).inertialAcceleration
  let bodies := match ignore with
    | .none => []
    | .whfastOne => (others h).take 1
    | .whfastTwo => others h
  bodies.foldl (fun a i =>
    let d := (p h).inertialPosition - (p i).gr.position
    let r2 := d.norm2
    let r := FOps.sqrt r2
    let prefac := k.g / (r2 * r)
    fun j => if j = h then a j - (prefac * (p i).mass) • d
      else if j = i then a j + (prefac * (p h).mass) • d else a j) start

/-- State of the loop of general_relativity.rs 563-595. -/
structure Jacobi (F : Type) (n : Nat) where
  eta : F
  sx : Axes F
  sv : Axes F
  sa : Axes F
  position : Fin n → Axes F
  velocity : Fin n → Axes F
  acceleration : Fin n → Axes F

/-- `s * k` (line 587: `s_x * pme`). -/
def smulRight (a : Axes F) (k : F) : Axes F := ⟨a.x * k, a.y * k, a.z * k⟩

/-- general_relativity.rs 539-609 without the centre of mass (unused by the caller). -/
def toJacobi {n : Nat} (h : Fin n) (p : Fin n → Particle F) (newton : Fin n → Axes F) : Jacobi F n :=
  let m0 := (p h).mass
  (others h).foldl (fun s i =>
      if (p i).gr.effect.isOrbiting then
        let ei := lit 1 / s.eta
        let eta := s.eta + (p i).mass
        let pme := eta * ei
        let x := (p i).inertialPosition - smulRight s.sx ei
        let v := (p i).inertialVelocity - smulRight s.sv ei
        let a := newton i - smulRight s.sa ei
        { eta := eta,
          sx := smulRight s.sx pme + (p i).mass • x,
          sv := smulRight s.sv pme + (p i).mass • v,
          sa := smulRight s.sa pme + (p i).mass • a,
          position := fun j => if j = i then x else s.position j,
          velocity := fun j => if j = i then v else s.velocity j,
          acceleration := fun j => if j = i then a else s.acceleration j }
      else s)
    { eta := m0, sx := m0 • (p h).inertialPosition, sv := m0 • (p h).inertialVelocity, sa := m0 • newton h,
      position := fun _ => Axes.zero, velocity := fun _ => Axes.zero, acceleration := fun _ => Axes.zero }

/-- general_relativity.rs 485-502: fixed point iteration for the momentum velocity, at most 10 turns; gives
`(vi, vi2, factor_a)`. -/
def andersonLoop (k : Consts F) (eps2 mu ri : F) (v : Axes F) : Nat → Axes F → F → F → Axes F × F × F
  | 0, vi, vi2, factorA => (vi, vi2, factorA)
  | fuel + 1, vi, _, factorA =>
    let vi' := v.sdiv (lit 1 - factorA)
    let vi2' := vi'.norm2
    let factorA' := (lit (1/2) * vi2' + lit 3 * mu / ri) / k.c2
    let dv := vi' - vi
    if ltb (dv.norm2 / vi2') eps2 then (vi', vi2', factorA')
    else andersonLoop k eps2 mu ri v fuel vi' vi2' factorA'

/-- general_relativity.rs 478-515: the relativistic correction in Jacobi coordinates. -/
def andersonCorrection (k : Consts F) (eps2 mu : F) (x v a : Axes F) : Axes F :=
  let vi2 := v.norm2
  let ri := FOps.sqrt x.norm2
  let factorA := (lit (1/2) * vi2 + lit 3 * mu / ri) / k.c2
  let r := andersonLoop k eps2 mu ri v 10 v vi2 factorA
  let vi := r.1
  let vi2 := r.2.1
  let factorA := r.2.2
  let factorB := (mu / ri - lit (3/2) * vi2) * mu / (ri * ri * ri) / k.c2
  let rdotrdot := x.dot v
  let vidot := a + factorB • x
  let vdotvdot := vi.dot vidot
  let factorD := (vdotvdot - lit 3 * mu / (ri * ri * ri) * rdotrdot) / k.c2
  (factorB * (lit 1 - factorA)) • x - factorA • a - factorD • vi

/-- general_relativity.rs 611-636: from Jacobi to inertial accelerations; the loop runs from the last
companion to the first.  State: `(eta, s, accelerations)`. -/
def fromJacobi {n : Nat} (h : Fin n) (p : Fin n → Particle F) (jacobiMass : F) (jacobiStar : Axes F)
    (jacobi : Fin n → Axes F) : Fin n → Axes F :=
  let r := (others h).reverse.foldl (fun (s : F × Axes F × (Fin n → Axes F)) i =>
      if (p i).gr.effect.isOrbiting then
        let ei := lit 1 / s.1
        let sa := smulRight (s.2.1 - (p i).mass • jacobi i) ei
        let eta := s.1 - (p i).mass
        (eta, smulRight sa eta, fun j => if j = i then jacobi i + sa else s.2.2 j)
      else s)
    (jacobiMass, jacobiMass • jacobiStar, fun _ => Axes.zero)
  let mtotI := lit 1 / r.1
  fun j => if j = h then smulRight r.2.1 mtotI else r.2.2 j

/-- general_relativity.rs 461-537. -/
def anderson {n : Nat} (k : Consts F) (eps2 : F) (ignore : Ignore) (h : Fin n) (p : Fin n → Particle F) :
    Fin n → Particle F :=
  let newton := newtonianAccelerations k ignore h p
  let jac := toJacobi h p newton
  let mu := (p h).massG
  let corrected : Fin n → Axes F := fun i =>
    if (p i).gr.effect.isOrbiting then
      andersonCorrection k eps2 mu (jac.position i) (jac.velocity i) (jac.acceleration i)
    else jac.acceleration i
  let a := fromJacobi h p jac.eta Axes.zero corrected
  mapHost h (fun host => { host with gr := { host.gr with acceleration := a h } })
    (fun i => if i = h then p i else
      if (p i).gr.effect.isOrbiting then { p i with gr := { (p i).gr with acceleration := a i } } else p i)

/-! ## Newhall et al. 1983 -/

/-- The test `particle_i.effect != Disabled || particle_j.effect != Disabled` (lines 709, 740, 832). -/
def grPair (a b : Particle F) : Bool := (a.gr.effect != .disabled) || (b.gr.effect != .disabled)

/-- general_relativity.rs 700-720: `drs[i][j]` (zero if not computed). -/
def newhallDr {n : Nat} (p : Fin n → Particle F) (i j : Fin n) : Axes F :=
  if j ≠ i ∧ grPair (p i) (p j) then (p i).inertialPosition - (p j).inertialPosition else Axes.zero

/-- general_relativity.rs 700-720: `rs[i][j]` (zero if not computed). -/
def newhallR {n : Nat} (p : Fin n → Particle F) (i j : Fin n) : F :=
  if j ≠ i ∧ grPair (p i) (p j) then FOps.sqrt (newhallDr p i j).norm2 else lit 0

/-- The loops run over the host first, then over the others. -/
def hostFirst {n : Nat} (h : Fin n) : List (Fin n) := h :: others h

/-- general_relativity.rs 746-753. -/
def newhallA1 {n : Nat} (k : Consts F) (h : Fin n) (p : Fin n → Particle F) (i : Fin n) : F :=
  (hostFirst h).foldl (fun a l =>
    if l = i then a else a + lit 4 / k.c2 * k.g * (p l).mass / newhallR p i l) (lit 0)

/-- general_relativity.rs 755-762. -/
def newhallA2 {n : Nat} (k : Consts F) (h : Fin n) (p : Fin n → Particle F) (j : Fin n) : F :=
  (hostFirst h).foldl (fun a l =>
    if l = j then a else a + lit 1 / k.c2 * k.g * (p l).mass / newhallR p l j) (lit 0)

/-- general_relativity.rs 740-792: the two constant terms of the pair added to `acc`. -/
def newhallConstPair {n : Nat} (k : Consts F) (h : Fin n) (p : Fin n → Particle F) (i j : Fin n)
    (acc : Axes F) : Axes F :=
  let d := newhallDr p i j
  let rij2 := ipow (newhallR p i j) 2
  let rij3 := rij2 * newhallR p i j
  let vi := (p i).inertialVelocity
  let vj := (p j).inertialVelocity
  let a1 := newhallA1 k h p i
  let a2 := newhallA2 k h p j
  let a3 := (-vi.norm2) / k.c2
  let a4 := lit (-2) * vj.norm2 / k.c2
  let a5 := lit 4 / k.c2 * vi.dot vj
  let a6 := lit 3 / (lit 2 * k.c2) * ipow (d.dot vj) 2 / rij2
  let factor1 := a1 + a2 + a3 + a4 + a5 + a6
  let term1 := (smulRight ((k.g * (p j).mass) • d) factor1).sdiv rij3
  let dv := vi - vj
  let factor2 := d.dot ((lit 4 : F) • vi - (lit 3 : F) • vj)
  let term2 := (((k.g * (p j).mass * factor2) • dv).sdiv rij3).sdiv k.c2
  acc + term1 + term2

/-- general_relativity.rs 722-797: `a_const`. -/
def newhallConst {n : Nat} (k : Consts F) (h : Fin n) (p : Fin n → Particle F) (i : Fin n) : Axes F :=
  (hostFirst h).foldl (fun acc j =>
    if j ≠ i ∧ grPair (p i) (p j) then newhallConstPair k h p i j acc else acc) Axes.zero

/-- general_relativity.rs 826-849: one sweep, `a_new` from `a_old`. -/
def newhallSweep {n : Nat} (k : Consts F) (h : Fin n) (p : Fin n → Particle F) (newton : Fin n → Axes F)
    (old : Fin n → Axes F) (i : Fin n) : Axes F :=
  let nonConst := (hostFirst h).foldl (fun acc j =>
    if j ≠ i ∧ grPair (p i) (p j) then
      let d := newhallDr p i j
      let rij := newhallR p i j
      let rij3 := ipow rij 2 * rij
      let a := newton j + old j
      acc + ((smulRight (((k.g * (p j).mass) • d).sdiv rij3) (d.dot a)).sdiv (lit 2 * k.c2)
        + ((lit 7 / (lit 2 * k.c2) * k.g * (p j).mass) • a).sdiv rij)
    else acc) Axes.zero
  newhallConst k h p i + nonConst

/-- general_relativity.rs 861-880: `maxdev`.  State `(maxdev, dx, dy, dz)`; `1.0e-30` is the limit. -/
def newhallMaxDev {n : Nat} (h : Fin n) (p : Fin n → Particle F) (new old : Fin n → Axes F) : F :=
  let limit : F := lit (1/1000000000000000000000000000000)
  let r := (hostFirst h).foldl (fun (s : F × F × F × F) i =>
      if (p i).gr.effect != .disabled then
        let dx := if ltb (FOps.abs (new i).x) limit then FOps.abs ((new i).x - (old i).x) / (new i).x else s.2.1
        let dy := if ltb (FOps.abs (new i).y) limit then FOps.abs ((new i).y - (old i).y) / (new i).y else s.2.2.1
        let dz := if ltb (FOps.abs (new i).z) limit then FOps.abs ((new i).z - (old i).z) / (new i).z else s.2.2.2
        let m := if ltb s.1 dx then dx else s.1
        let m := if ltb m dy then dy else m
        let m := if ltb m dz then dz else m
        (m, dx, dy, dz)
      else s) (lit 0, lit 0, lit 0, lit 0)
  r.1

/-- general_relativity.rs 799-888: at most ten sweeps. -/
def newhallLoop {n : Nat} (k : Consts F) (h : Fin n) (p : Fin n → Particle F) (newton : Fin n → Axes F) :
    Nat → (Fin n → Axes F) → (Fin n → Axes F)
  | 0, a => a
  | fuel + 1, a =>
    let new := newhallSweep k h p newton a
    if ltb (newhallMaxDev h p new a) (lit (1/1000000000000000000000000000000)) then new
    else newhallLoop k h p newton fuel new

/-- general_relativity.rs 683-895. -/
def newhall {n : Nat} (k : Consts F) (ignore : Ignore) (h : Fin n) (p : Fin n → Particle F) :
    Fin n → Particle F :=
  let newton := newtonianAccelerations k ignore h p
  let a := newhallLoop k h p newton 10 (fun _ => Axes.zero)
  mapHost h (fun host => { host with gr := { host.gr with acceleration := a h } })
    (fun i => if i = h then p i else
      if (p i).gr.effect.isOrbiting then { p i with gr := { (p i).gr with acceleration := a i } } else p i)

end
end Posidonius.Univ
