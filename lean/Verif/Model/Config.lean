import Verif.Model.Universe

/-!
# Construction of the universe

/repo/src/particles/universe.rs 73-175 (`Universe::new`), 625-764 and 900-1006.

`none` as a result is a panic.  The particles form a list of length `n`, here `Fin n → Particle F`.  The
index `MAX_PARTICLES + 1`, which means "not found", is `none`: an index of a real particle can only have
this value with more than `MAX_PARTICLES` particles, and then `Universe::new` panics anyhow.
The warnings (`check_effects_vs_central_and_orbiting`, lines 766-898, which only prints) are left out.
-/

namespace Posidonius.Univ
open Evolution (EvolutionType Evolver)

/-! ## Roles -/

section
variable {F : Type}

/-- universe.rs 722-723: a central body with an implementation other than `Disabled`. -/
def GrEffect.isCentral : GrEffect → Bool
  | .central implementation => implementation != .disabled
  | _ => false

/-- `if let DiskEffect::CentralBody(_) = effect` -/
def DiskEffect.isCentral : DiskEffect F → Bool
  | .central _ => true
  | _ => false

/-- universe.rs 965-966: a central body with a disk that has an edge. -/
def DiskEffect.hasDisk [FOps F] : DiskEffect F → Bool
  | .central d => !(eqb d.innerEdgeDistance (lit 0)) || !(eqb d.outerEdgeDistance (lit 0))
  | _ => false

end

variable {n : Nat}

/-- A turn of the loop that notes whether a role is taken and panics when it is taken again (e.g.
universe.rs 708-713). -/
def foundStep (role : Fin n → Bool) (found : Option Bool) (i : Fin n) : Option Bool :=
  match found with
  | none => none
  | some f => if role i then (if f then none else some true) else some f

/-- The whole loop. -/
def foundOnce (role : Fin n → Bool) : Option Bool :=
  (List.finRange n).foldl (foundStep role) (some false)

/-- The loop that notes whether something is found (e.g. universe.rs 736-738). -/
def foundAny (role : Fin n → Bool) : Bool :=
  (List.finRange n).foldl (fun found i => if role i then true else found) false

/-- A turn of the loop that searches the index of a role and panics when there are two (e.g. universe.rs
934-942). -/
def findStep (role : Fin n → Bool) (found : Option (Option (Fin n))) (i : Fin n) : Option (Option (Fin n)) :=
  match found with
  | none => none
  | some f => if role i then (if f.isNone then some (some i) else none) else some f

/-- The whole loop. -/
def findHost (role : Fin n → Bool) : Option (Option (Fin n)) :=
  (List.finRange n).foldl (findStep role) (some none)

section
variable {F : Type} [Add F] [Sub F] [Mul F] [Div F] [Neg F] [FOps F]

/-- universe.rs 699-764 `disable_unnecessary_effects`.  The code searches all the roles in one loop over
the particles; a panic in any of them is a panic. -/
def disableUnnecessary (c : Consider) (p : Fin n → Particle F) : Option Consider :=
  match foundOnce (fun i => (p i).tides.effect.isCentral),
    foundOnce (fun i => (p i).flattening.effect.isCentral),
    foundOnce (fun i => (p i).gr.effect.isCentral),
    foundOnce (fun i => (p i).disk.effect.isCentral) with
  | some t, some f, some g, some d =>
    some { tides := if c.tides && !t then false else c.tides
           flattening := if c.flattening && !f then false else c.flattening
           gr := if c.gr && !g then false else c.gr
           disk := if c.disk && !d then false else c.disk
           wind := if c.wind && !foundAny (fun i => (p i).wind.interaction) then false else c.wind
           evolution :=
             if c.evolution && !foundAny (fun i => (p i).evolution != .nonEvolving) then false
             else c.evolution }
  | _, _, _, _ => none

/-- universe.rs 902-909: index and mass of the first particle with the largest mass above zero. -/
def mostMassive (p : Fin n → Particle F) : Option (Fin n) :=
  ((List.finRange n).foldl (fun (best : Option (Fin n) × F) i =>
    if ltb best.2 (p i).mass then (some i, (p i).mass) else best) (none, lit 0)).1

/-- A search that is only done for a considered effect. -/
def findIf (considered : Bool) (role : Fin n → Bool) : Option (Option (Fin n)) :=
  if considered then findHost role else some none

/-- universe.rs 900-1006 `find_indices`.  When no particle has a positive mass, the code goes on with the
index 11, and `inertial_to_heliocentric` (called by every step of every integrator) panics in
`split_at_mut`; here this panic comes at once. -/
def findIndices (p : Fin n → Particle F) (c : Consider) : Option (Hosts n) :=
  match mostMassive p with
  | none => none
  | some mm =>
  match findIf c.gr (fun i => (p i).gr.effect.isCentral) with
  | none => none
  | some g =>
  if c.gr && (some mm != g) then none else
  match findIf c.tides (fun i => (p i).tides.effect.isCentral) with
  | none => none
  | some t =>
  match findIf c.flattening (fun i => (p i).flattening.effect.isCentral) with
  | none => none
  | some f =>
  if c.tides && c.flattening && (t != f) then none else
  let t1 := if !c.tides && c.flattening then f else t
  match findIf c.disk (fun i => (p i).disk.effect.hasDisk) with
  | none => none
  | some d =>
    let mmTides := c.tides && (some mm == t1)
    let mmFlattening := c.flattening && (some mm == f)
    let mmGr := c.gr && (some mm == g)
    let mmDisk := c.disk && (some mm == d)
    some { mostMassive := mm, tides := t1, flattening := f, gr := g, disk := d
           all := ((c.tides && mmTides) || !c.tides) && ((c.flattening && mmFlattening) || !c.flattening)
             && ((c.gr && mmGr) || !c.gr) && ((c.disk && mmDisk) || !c.disk)
           mostMassiveTides := mmTides, mostMassiveFlattening := mmFlattening
           mostMassiveGr := mmGr, mostMassiveDisk := mmDisk }

/-! ## Construction -/

/-- universe.rs 82-93 for one particle that is not the host. -/
def grFactor (host p : Particle F) : Particle F :=
  { p with gr := { p.gr with factor := host.massG * p.massG / ipow (host.massG + p.massG) 2 } }

/-- universe.rs 78-93. -/
def grSetup (c : Consider) (g : Option (Fin n)) (p : Fin n → Particle F) :
    GrImplementation × (Fin n → Particle F) :=
  if c.gr then
    match g with
    | none => (.disabled, p)
    | some h =>
      match (p h).gr.effect with
      | .central implementation =>
        if implementation != .disabled then (implementation, mapOthers h grFactor p) else (.disabled, p)
      | _ => (.disabled, p)
  else (.disabled, p)

/-- universe.rs 663-680 `get_center_of_mass_of_pair`: position, velocity and mass so far. -/
def centerOfMassOfPair (c : Axes F × Axes F × F) (p : Particle F) : Axes F × Axes F × F :=
  let position : Axes F := ⟨c.1.x * c.2.2 + p.heliocentricPosition.x * p.mass,
    c.1.y * c.2.2 + p.heliocentricPosition.y * p.mass, c.1.z * c.2.2 + p.heliocentricPosition.z * p.mass⟩
  let velocity : Axes F := ⟨c.2.1.x * c.2.2 + p.heliocentricVelocity.x * p.mass,
    c.2.1.y * c.2.2 + p.heliocentricVelocity.y * p.mass, c.2.1.z * c.2.2 + p.heliocentricVelocity.z * p.mass⟩
  let mass := c.2.2 + p.mass
  if ltb (lit 0) mass then (position.sdiv mass, velocity.sdiv mass, mass) else (position, velocity, mass)

/-- universe.rs 683-697 `calculate_center_of_mass`. -/
def centerOfMass (p : Fin n → Particle F) : Axes F × Axes F :=
  let r := (List.finRange n).foldl (fun c i => centerOfMassOfPair c (p i)) (Axes.zero, Axes.zero, lit 0)
  (r.1, r.2.1)

/-- universe.rs 98-105 for one particle. -/
def toInertial (position velocity : Axes F) (p : Particle F) : Particle F :=
  { p with inertialPosition := p.heliocentricPosition - position
           inertialVelocity := p.heliocentricVelocity - velocity }

/-- universe.rs 134-159 for one particle: start in the state of the model of the evolving body at time
zero.  The differences below one millionth are ignored. -/
def matchEvolution (p : Particle F) (e : Evolver F) : Option (Particle F × Evolver F) :=
  match p.evolution with
  | .nonEvolving => some (p, e)
  | _ =>
    match e.queryRadius (lit 0) p.radius with
    | none => none
    | some (newRadius, e1) =>
      let updateRadius := ltb (lit (1 / 1000000)) (FOps.abs (newRadius - p.radius))
      let radius := if updateRadius then newRadius else p.radius
      match e1.queryRadiusOfGyration2 (lit 0) p.radiusOfGyration2 with
      | none => none
      | some (newRg2, e2) =>
        let updateRg2 := ltb (lit (1 / 1000000)) (FOps.abs (newRg2 - p.radiusOfGyration2))
        let rg2 := if updateRg2 then newRg2 else p.radiusOfGyration2
        let p1 : Particle F := { p with radius := radius, radiusOfGyration2 := rg2 }
        if updateRadius || updateRg2 then
          let inertia := p.mass * rg2 * ipow radius 2
          some ({ p1 with
            momentOfInertia := inertia
            angularMomentum := ⟨p.spin.x * inertia, p.spin.y * inertia, p.spin.z * inertia⟩ }, e2)
        else some (p1, e2)

/-- universe.rs 73-175 `Universe::new`.  `make i` is `Evolver::new` for particle `i` (evolution.rs 60-444,
which reads tables from files and may panic). -/
def newUniverse [FPow F] [FTrig F] (c0 : Consider) (make : Fin n → Option (Evolver F))
    (p0 : Fin n → Particle F) : Option (Universe F n) :=
  match disableUnnecessary c0 p0 with
  | none => none
  | some c =>
  match findIndices p0 c with
  | none => none
  | some hosts =>
    let setup := grSetup c hosts.gr p0
    let com := centerOfMass setup.2
    if n > maxParticles then none else
    let p1 : Fin n → Particle F := fun i => { toInertial com.1 com.2 (setup.2 i) with id := i.val }
    match traverse make with
    | none => none
    | some evolvers =>
      match traverse (fun i =>
          if c.evolution then matchEvolution (p1 i) (evolvers i) else some (p1 i, evolvers i)) with
      | none => none
      | some r =>
        some { particles := fun i => (r i).1, evolvers := fun i => (r i).2, consider := c
               grImplementation := setup.1, hosts := hosts, table := fun _ => none }

/-! ## Conserved quantities -/

/-- universe.rs 625-647 `compute_total_energy`. -/
def totalEnergy (p : Fin n → Particle F) : F :=
  let kin := (List.finRange n).foldl (fun e i =>
    e + lit (1 / 2) * (p i).mass * (p i).heliocentricVelocity.norm2) (lit 0)
  let pot := (List.finRange n).foldl (fun e i =>
    ((List.finRange n).filter (fun j => i < j)).foldl (fun e j =>
      e - (p j).massG * (p i).mass
        / FOps.sqrt ((p i).heliocentricPosition - (p j).heliocentricPosition).norm2) e) (lit 0)
  kin + pot + lit 0

/-- universe.rs 649-658 `compute_total_angular_momentum`. -/
def totalAngularMomentum (p : Fin n → Particle F) : F :=
  let l := (List.finRange n).foldl (fun (l : Axes F) i =>
    l + (p i).mass • (p i).heliocentricPosition.cross (p i).heliocentricVelocity) Axes.zero
  FOps.sqrt l.norm2

end
end Posidonius.Univ
