import Verif.Model.Builder

/-!
# The Python front end: how a case file is put together

/repo/posidonius/particles/universe.py 35-347, particles/particle.py 48-159, effects/*.py and `calculate_center_of_mass`
of tools.py 79-128.  A simulation is normally started from the file that this code writes; the simulator reads the file
as it is and does not call `Universe::new` (Model/Config).

`none` as a result is an exception.  The dictionaries have the keys of the Rust structures and are modelled by the same
structures (all keys are the names of the fields of the Rust structures).  `float(x)` of a number is the number, `x**2`
and `np.power(x, 2)` are products.  Warnings and infos (`check_effects_vs_central_and_orbiting`, which only prints) are
left out.  Of the sharing of dictionaries between the copies of `get` nothing is modelled: the only nested value that is
changed after the particles have been added and that two particles may share (when both were given the same object
`GeneralRelativity`) is the factor of general relativity, which the simulator computes anew before it uses it.
-/

namespace Posidonius.Univ.Py
open Evolution (EvolutionType)

section
variable {F : Type} [Add F] [Sub F] [Mul F] [Div F] [Neg F] [FOps F]

/-! ## Particles -/

/-- effects/tides.py 5-41: the factor is the product in the other order than in Rust. -/
def newTides (effect : TidesEffect F) : Tides F :=
  let scaled := match effect with
    | .central (.constantTimeLag s sc _) | .orbiting (.constantTimeLag s sc _) => s * sc
    | _ => lit 0
  { effect := effect, distance := lit 0, radialVelocity := lit 0, scaledDissipationFactor := scaled,
    rDotStellarSpin := lit 0, rDotPlanetarySpin := lit 0, orthogonalStellar := lit 0,
    orthogonalPlanetary := lit 0, radial := lit 0, radialDissipativePlanet := lit 0, shape := Axes.zero,
    denergyDt := lit 0, lagAngle := lit 0, acceleration := Axes.zero, dAngularMomentumDt := Axes.zero,
    position := Axes.zero, velocity := Axes.zero }

/-- effects/rotational_flattening.py 5-37. -/
def newFlattening (effect : FlatteningEffect F) : Flattening F :=
  { effect := effect, distance := lit 0, rDotStellarSpin := lit 0, rDotPlanetarySpin := lit 0, radial := lit 0,
    factorStar := lit 0, factorPlanet := lit 0, orthogonalStar := lit 0, orthogonalPlanet := lit 0,
    shape := Axes.zero, acceleration := Axes.zero, dAngularMomentumDt := Axes.zero, position := Axes.zero,
    velocity := Axes.zero }

/-- effects/general_relativity.py 4-33. -/
def newGr (effect : GrEffect) : Gr F :=
  { effect := effect, distance := lit 0, radialVelocity := lit 0, normVelocity := lit 0, normVelocity2 := lit 0,
    factor := lit 0, acceleration := Axes.zero, dAngularMomentumDt := Axes.zero, position := Axes.zero,
    velocity := Axes.zero }

/-- effects/disk.py 5-34. -/
def newDisk (effect : DiskEffect F) : Disk F :=
  { effect := effect, distance := lit 0, normVelocity := lit 0, normVelocity2 := lit 0, migrationTimescale := lit 0,
    acceleration := Axes.zero, position := Axes.zero, velocity := Axes.zero }

/-- effects/wind.py 5-33: a disabled wind has no parameters. -/
def newWind (interaction : Bool) (kFactor rotationSaturation : F) : Wind F :=
  if interaction then
    { interaction := true, kFactor := kFactor, rotationSaturation := rotationSaturation,
      rotationSaturation2 := rotationSaturation * rotationSaturation, dAngularMomentumDt := Axes.zero }
  else
    { interaction := false, kFactor := lit 0, rotationSaturation := lit 0, rotationSaturation2 := lit 0,
      dAngularMomentumDt := Axes.zero }

/-- particle.py 49-95 `Particle.__init__`. -/
def newParticle (k : Consts F) (mass radius radiusOfGyration : F) (position velocity spin : Axes F) : Particle F :=
  let rg2 := radiusOfGyration * radiusOfGyration
  let inertia := mass * rg2 * radius * radius
  { id := 0, mass := mass, massG := mass * k.g, radius := radius,
    inertialPosition := Axes.zero, inertialVelocity := Axes.zero, inertialAcceleration := Axes.zero,
    inertialAdditionalAcceleration := Axes.zero,
    heliocentricPosition := position, heliocentricVelocity := velocity,
    heliocentricDistance := lit 0, heliocentricRadialVelocity := lit 0, heliocentricNormVelocity := lit 0,
    heliocentricNormVelocity2 := lit 0,
    spin := spin, normSpin2 := spin.x * spin.x + spin.y * spin.y + spin.z * spin.z,
    angularMomentum := ⟨inertia * spin.x, inertia * spin.y, inertia * spin.z⟩,
    dAngularMomentumDt := Axes.zero, radiusOfGyration2 := rg2, momentOfInertia := inertia,
    tides := newTides .disabled, flattening := newFlattening .disabled, gr := newGr .disabled,
    wind := newWind false (lit 0) (lit 0), disk := newDisk .disabled, evolution := .nonEvolving }

/-- particle.py 125-139 `check_uniform_viscosity_coefficient`; `false` is an exception. -/
def viscosityOk (t : TidesEffect F) (f : FlatteningEffect F) : Bool :=
  match t, f with
  | .disabled, _ => true
  | _, .disabled => true
  | t, f =>
    match t.creep, f.creep with
    | some _, none => false
    | none, some _ => false
    | none, none => true
    | some a, some b => !ltb (lit (1 / 10000000000000000)) (FOps.abs (b - a))

/-- particle.py 115-159: the setters. -/
def apply (p : Particle F) (s : Setting F) : Option (Particle F) :=
  match s with
  | .tides e =>
    let q := { p with tides := newTides e }
    if viscosityOk q.tides.effect q.flattening.effect then some q else none
  | .flattening e =>
    let q := { p with flattening := newFlattening e }
    if viscosityOk q.tides.effect q.flattening.effect then some q else none
  | .gr e => some { p with gr := newGr e }
  | .wind i a b => some { p with wind := newWind i a b }
  | .disk e => some { p with disk := newDisk e }
  | .evolution e => some { p with evolution := e }

/-- A sequence of calls of setters. -/
def configure (p : Particle F) : List (Setting F) → Option (Particle F)
  | [] => some p
  | s :: l =>
    match apply p s with
    | none => none
    | some q => configure q l

/-- particle.py 161-186 `DummyParticle`; the constants do not matter. -/
def dummy (k : Consts F) : Particle F :=
  newParticle k (lit 0) (lit 0) (lit 0) Axes.zero Axes.zero Axes.zero

/-! ## Universe -/

/-- universe.py 36-66: the part of the dictionary that is made step by step.  `n_particles` is the length of
`particles`.  An index that has not been set has the value 11. -/
structure Front (F : Type) where
  consider : Consider
  grImplementation : GrImplementation
  tides : Nat
  flattening : Nat
  gr : Nat
  disk : Nat
  particles : List (Particle F)

/-- universe.py 36-66. -/
def start (c : Consider) : Front F :=
  { consider := c, grImplementation := .disabled, tides := maxParticles + 1, flattening := maxParticles + 1,
    gr := maxParticles + 1, disk := maxParticles + 1, particles := [] }

/-- universe.py 77-84 and the same for the other effects: the index of the central body; a second one is an
exception. -/
def claim (considered central : Bool) (index n : Nat) : Option Nat :=
  if central then
    if considered then (if index = maxParticles + 1 then some n else none) else some index
  else some index

/-- universe.py 97-104: the implementation, with that of a new central body. -/
def claimImplementation (considered : Bool) (effect : GrEffect) (old : GrImplementation) : GrImplementation :=
  match effect with
  | .central implementation => if considered && implementation != .disabled then implementation else old
  | _ => old

/-- universe.py 73-163 `add_particle`.  `evolve` stands for lines 129-159 for an evolving body: its tables, the tests
of their times, and the adaptation of radius and moment of inertia. -/
def addParticle (evolve : Particle F → Option (Particle F)) (s : Front F) (p : Particle F) : Option (Front F) :=
  if s.particles.length > maxParticles then none
  else
    match claim s.consider.tides p.tides.effect.isCentral s.tides s.particles.length,
      claim s.consider.flattening p.flattening.effect.isCentral s.flattening s.particles.length,
      claim s.consider.gr p.gr.effect.isCentral s.gr s.particles.length,
      claim s.consider.disk p.disk.effect.isCentral s.disk s.particles.length,
      (if p.evolution = .nonEvolving then some p else evolve p) with
    | some t, some f, some g, some d, some q =>
      some { consider := s.consider
             grImplementation := claimImplementation s.consider.gr p.gr.effect s.grImplementation
             tides := t, flattening := f, gr := g, disk := d, particles := s.particles ++ [q] }
    | _, _, _, _, _ => none

/-- The calls of `add_particle` of a case. -/
def addAll (evolve : Particle F → Option (Particle F)) (s : Front F) : List (Particle F) → Option (Front F)
  | [] => some s
  | p :: l =>
    match addParticle evolve s p with
    | none => none
    | some s' => addAll evolve s' l

/-- `for i, particle in enumerate(particles)` with the numbers from `i` on. -/
def enumFold {α β : Type} (g : β → Nat → α → β) (b : β) : List α → Nat → β
  | [], _ => b
  | a :: l, i => enumFold g (g b i a) l (i + 1)

/-- universe.py 259-285 `disable_unnecessary_effects`. -/
def disableUnnecessary (s : Front F) : Consider :=
  let foundEvolving := s.particles.foldl (fun found p => if p.evolution != .nonEvolving then true else found) false
  let foundWind := s.particles.foldl (fun found p => if p.wind.interaction then true else found) false
  let c := s.consider
  { tides := if c.tides && s.tides == maxParticles + 1 then false else c.tides
    flattening := if c.flattening && s.flattening == maxParticles + 1 then false else c.flattening
    gr := if c.gr && s.gr == maxParticles + 1 then false else c.gr
    disk := if c.disk && s.disk == maxParticles + 1 then false else c.disk
    wind := if c.wind && !foundWind then false else c.wind
    evolution := if c.evolution && !foundEvolving then false else c.evolution }

/-- tools.py 113-127: one more body; a mass of zero so far is an exception (division of a Python float by zero). -/
def centerOfMassStep (c : Option (Axes F × Axes F × F)) (p : Particle F) : Option (Axes F × Axes F × F) :=
  match c with
  | none => none
  | some c =>
    let position : Axes F := ⟨c.1.x * c.2.2 + p.heliocentricPosition.x * p.mass,
      c.1.y * c.2.2 + p.heliocentricPosition.y * p.mass, c.1.z * c.2.2 + p.heliocentricPosition.z * p.mass⟩
    let velocity : Axes F := ⟨c.2.1.x * c.2.2 + p.heliocentricVelocity.x * p.mass,
      c.2.1.y * c.2.2 + p.heliocentricVelocity.y * p.mass, c.2.1.z * c.2.2 + p.heliocentricVelocity.z * p.mass⟩
    let mass := c.2.2 + p.mass
    if eqb mass (lit 0) then none else some (position.sdiv mass, velocity.sdiv mass, mass)

/-- tools.py 79-128 `calculate_center_of_mass`; no bodies at all are an exception. -/
def centerOfMass (l : List (Particle F)) : Option (Axes F × Axes F) :=
  if l = [] then none
  else (l.foldl centerOfMassStep (some (Axes.zero, Axes.zero, lit 0))).map fun r => (r.1, r.2.1)

/-- universe.py 178-184 for one particle. -/
def toInertial (c : Axes F × Axes F) (p : Particle F) : Particle F :=
  { p with
    inertialPosition := ⟨p.heliocentricPosition.x - c.1.x, p.heliocentricPosition.y - c.1.y,
      p.heliocentricPosition.z - c.1.z⟩
    inertialVelocity := ⟨p.heliocentricVelocity.x - c.2.x, p.heliocentricVelocity.y - c.2.y,
      p.heliocentricVelocity.z - c.2.z⟩ }

/-- universe.py 187-189 `assign_id`. -/
def assignIds (l : List (Particle F)) : List (Particle F) :=
  enumFold (fun r i p => r ++ [{ p with id := i }]) [] l 0

/-- universe.py 191-196: the most massive particle, 11 if none. -/
def mostMassive (l : List (Particle F)) : Nat :=
  (enumFold (fun (best : Nat × F) i p => if ltb best.2 p.mass then (i, p.mass) else best)
    (maxParticles + 1, lit 0) l 0).1

/-- universe.py 300-311 `compute_general_relativity_factor` for one particle. -/
def withFactor (considered : Bool) (centralMassG : F) (p : Particle F) : Particle F :=
  let factor :=
    if !considered || p.gr.effect.isCentral || p.gr.effect = .disabled || eqb p.mass (lit 0) then lit 0
    else centralMassG * p.massG / ((centralMassG + p.massG) * (centralMassG + p.massG))
  { p with gr := { p.gr with factor := factor } }

/-- The dictionary `universe` of the file: the numbers of the hosts, whether they are the most massive particle, the
array of 10 particles and the number of real ones.  The times, the evolvers, the empty map of dissipation factors and
the zero Roche radii are left out. -/
structure CaseFile (F : Type) where
  consider : Consider
  grImplementation : GrImplementation
  mostMassive : Nat
  tides : Nat
  flattening : Nat
  gr : Nat
  disk : Nat
  all : Bool
  mostMassiveTides : Bool
  mostMassiveFlattening : Bool
  mostMassiveGr : Bool
  mostMassiveDisk : Bool
  particles : List (Particle F)
  number : Nat

/-- universe.py 313-347 `get`, with `update_hosts` (287-298). -/
def get (k : Consts F) (s : Front F) : Option (CaseFile F) :=
  let c := disableUnnecessary s
  match centerOfMass s.particles with
  | none => none
  | some com =>
    let l := assignIds (s.particles.map (toInertial com))
    let mm := mostMassive l
    if s.gr ≠ maxParticles + 1 ∧ s.gr ≠ mm then none else
    let mmTides := c.tides && mm == s.tides
    let mmFlattening := c.flattening && mm == s.flattening
    let mmGr := c.gr && mm == s.gr
    let mmDisk := c.disk && mm == s.disk
    match l[mm]? with
    | none => none
    | some central =>
      some {
        consider := c
        grImplementation := s.grImplementation
        mostMassive := mm
        tides := if c.flattening && !c.tides then s.flattening else if !c.tides then maxParticles + 1 else s.tides
        flattening := if !c.flattening then maxParticles + 1 else s.flattening
        gr := if !c.gr then maxParticles + 1 else s.gr
        disk := if !c.disk then maxParticles + 1 else s.disk
        all := ((c.tides && mmTides) || !c.tides) && ((c.flattening && mmFlattening) || !c.flattening)
          && ((c.gr && mmGr) || !c.gr) && ((c.disk && mmDisk) || !c.disk)
        mostMassiveTides := mmTides
        mostMassiveFlattening := mmFlattening
        mostMassiveGr := mmGr
        mostMassiveDisk := mmDisk
        particles := l.map (withFactor c.gr central.massG) ++ List.replicate (maxParticles - l.length) (dummy k)
        number := l.length }

/-- A whole case: the effects to consider, the particles in the order in which they are added, and the file. -/
def caseFile (k : Consts F) (evolve : Particle F → Option (Particle F)) (c : Consider) (l : List (Particle F)) :
    Option (CaseFile F) :=
  match addAll evolve (start c) l with
  | none => none
  | some s => get k s

end
end Posidonius.Univ.Py
