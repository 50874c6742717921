import Verif.Model.Vec

/-!
# WHFast: coordinates, Kepler steps, kicks and jumps

/repo/src/integrator/whfast.rs 468-1155.  The code takes the most massive body out of the array of particles
(`split_at_mut`, `split_first_mut`) and runs through the others in their order (`left.chain(right)`); here the
system is the star and the list of the others.  Only the fields used here are kept; the alternative
coordinates of the star have no `mass_g` (written but never read).
-/

namespace Posidonius.WHFast

/-- The used part of a particle, in inertial coordinates. -/
structure Body (F : Type) where
  mass : F
  massG : F
  position : Axes F
  velocity : Axes F
  acceleration : Axes F

/-- The star and the other bodies in the order of the array. -/
structure Sys (F : Type) where
  star : Body F
  planets : List (Body F)

/-- whfast.rs 122-130 `AlternativeCoordinates` of a planet; the acceleration is only used inside
`jacobi_interaction_step`, see `jacobiAccelerations`. -/
structure Alt (F : Type) where
  mass : F
  massG : F
  position : Axes F
  velocity : Axes F

/-- `AlternativeCoordinates` of the star: centre of mass and total mass. -/
structure Centre (F : Type) where
  mass : F
  position : Axes F
  velocity : Axes F

/-- All alternative coordinates. -/
structure AltSys (F : Type) where
  star : Centre F
  planets : List (Alt F)

/-- whfast.rs 91-95. -/
inductive Coordinates where
  | jacobi
  | democraticHeliocentric
  | whds
deriving DecidableEq, Repr

section
variable {F : Type} [Add F] [Sub F] [Mul F] [Div F] [Neg F] [FOps F]

/-- Componentwise product with the scalar on the right. -/
def scaled (a : Axes F) (k : F) : Axes F := ⟨a.x * k, a.y * k, a.z * k⟩

/-! ## Jacobi coordinates -/

/-- whfast.rs 902-921: the loop over the planets, with the running mass and sums; final values last. -/
def jacobiLoop : F → Axes F → Axes F → List (Body F) → List (Alt F) × F × Axes F × Axes F
  | eta, s, sv, [] => ([], eta, s, sv)
  | eta, s, sv, p :: ps =>
    let ei := lit 1 / eta
    let eta' := eta + p.mass
    let pme := eta' * ei
    let a : Alt F := { mass := p.mass, massG := p.massG, position := p.position - scaled s ei,
                       velocity := p.velocity - scaled sv ei }
    let r := jacobiLoop eta' (scaled s pme + p.mass • a.position) (scaled sv pme + p.mass • a.velocity) ps
    (a :: r.1, r.2)

/-- whfast.rs 889-933 `inertial_to_jacobi_posvel`. -/
def toJacobi (u : Sys F) : AltSys F :=
  let m0 := u.star.mass
  let (planets, eta, s, sv) := jacobiLoop m0 (m0 • u.star.position) (m0 • u.star.velocity) u.planets
  let mtotI := lit 1 / eta
  { star := { mass := eta, position := scaled s mtotI, velocity := scaled sv mtotI }, planets := planets }

/-- whfast.rs 944-955: Jacobi accelerations of the planets. -/
def jacobiAccelerationLoop : F → Axes F → List (Body F) → List (Axes F)
  | _, _, [] => []
  | eta, s, p :: ps =>
    let ei := lit 1 / eta
    let eta' := eta + p.mass
    let pme := eta' * ei
    let a := p.acceleration - scaled s ei
    a :: jacobiAccelerationLoop eta' (scaled s pme + p.mass • a) ps

/-- whfast.rs 935-963 `inertial_to_jacobi_acc` (the star's value is never used). -/
def jacobiAccelerations (u : Sys F) : List (Axes F) :=
  jacobiAccelerationLoop u.star.mass (u.star.mass • u.star.acceleration) u.planets

/-- Masses and accelerations of a particle stay, position and velocity are replaced. -/
def Body.moved (p : Body F) (position velocity : Axes F) : Body F :=
  { p with position := position, velocity := velocity }

/-- whfast.rs 1047-1069: the loop over the planets from the last to the first (the lists are reversed). -/
def fromJacobiLoop : F → Axes F → Axes F → List (Alt F × Body F) → List (Body F) × F × Axes F × Axes F
  | eta, s, sv, [] => ([], eta, s, sv)
  | eta, s, sv, (a, p) :: ps =>
    let ei := lit 1 / eta
    let s1 := scaled (s - p.mass • a.position) ei
    let sv1 := scaled (sv - p.mass • a.velocity) ei
    let q := p.moved (a.position + s1) (a.velocity + sv1)
    let eta' := eta - p.mass
    let r := fromJacobiLoop eta' (scaled s1 eta') (scaled sv1 eta') ps
    (q :: r.1, r.2)

/-- whfast.rs 1034-1080 `jacobi_to_inertial_posvel`. -/
def fromJacobi (a : AltSys F) (u : Sys F) : Sys F :=
  let m0 := a.star.mass
  let (planets, eta, s, sv) := fromJacobiLoop m0 (m0 • a.star.position) (m0 • a.star.velocity)
    (a.planets.zip u.planets).reverse
  let mtotI := lit 1 / eta
  { star := u.star.moved (scaled s mtotI) (scaled sv mtotI), planets := planets.reverse }

/-! ## Democratic heliocentric coordinates and WHDS -/

/-- whfast.rs 978-1002: centre of mass, its velocity and the total mass. -/
def centre (u : Sys F) : Centre F :=
  let bodies := u.star :: u.planets
  let position := bodies.foldl (fun s p => s + scaled p.position p.mass) Axes.zero
  let velocity := bodies.foldl (fun s p => s + scaled p.velocity p.mass) Axes.zero
  let mass := bodies.foldl (fun s p => s + p.mass) (lit 0)
  { mass := mass, position := position.sdiv mass, velocity := velocity.sdiv mass }

/-- whfast.rs 973-1023 `inertial_to_whds_and_democratic_heliocentric_posvel`. -/
def toHelio (whds : Bool) (u : Sys F) : AltSys F :=
  let c := centre u
  { star := c,
    planets := u.planets.map fun p =>
      let velocity := p.velocity - c.velocity
      { mass := p.mass, massG := p.massG, position := p.position - u.star.position,
        velocity := if whds then scaled velocity ((u.star.mass + p.mass) / u.star.mass) else velocity } }

/-- whfast.rs 1128-1153 `whds_and_democratic_heliocentric_to_inertial_pos`: the new position of the star. -/
def starPosition (a : AltSys F) (u : Sys F) : Axes F :=
  (a.planets.zip u.planets).foldl
    (fun s x => s - (scaled x.1.position x.2.mass).sdiv a.star.mass) a.star.position

/-- whfast.rs 1097-1123: the new velocity of the star. -/
def starVelocity (whds : Bool) (a : AltSys F) (u : Sys F) : Axes F :=
  (a.planets.zip u.planets).foldl
    (fun s x => s - scaled x.1.velocity
      (if whds then x.2.mass / (u.star.mass + x.2.mass) else x.2.mass / u.star.mass)) a.star.velocity

/-- whfast.rs 1090-1126 `whds_and_democratic_heliocentric_to_inertial_posvel`. -/
def fromHelio (whds : Bool) (a : AltSys F) (u : Sys F) : Sys F :=
  let position := starPosition a u
  { star := u.star.moved position (starVelocity whds a u),
    planets := (a.planets.zip u.planets).map fun x =>
      x.2.moved (x.1.position + position)
        ((if whds then x.1.velocity.sdiv ((u.star.mass + x.2.mass) / u.star.mass) else x.1.velocity)
          + a.star.velocity) }

/-- whfast.rs 881-887 `inertial_to_alternative_posvel`. -/
def toAlternative : Coordinates → Sys F → AltSys F
  | .jacobi => toJacobi
  | .democraticHeliocentric => toHelio false
  | .whds => toHelio true

/-- whfast.rs 1026-1032 `alternative_to_inertial_posvel`. -/
def fromAlternative : Coordinates → AltSys F → Sys F → Sys F
  | .jacobi => fromJacobi
  | .democraticHeliocentric => fromHelio false
  | .whds => fromHelio true

/-! ## Jump and interaction -/

/-- whfast.rs 507-529. -/
def democraticJump (dt : F) (u : Sys F) (a : AltSys F) : AltSys F :=
  let m0 := u.star.mass
  let p := (a.planets.zip u.planets).foldl (fun s x => s + x.2.mass • x.1.velocity) Axes.zero
  { a with planets := a.planets.map fun q => { q with position := q.position + (dt • p).sdiv m0 } }

/-- whfast.rs 531-556. -/
def whdsJump (dt : F) (u : Sys F) (a : AltSys F) : AltSys F :=
  let m0 := u.star.mass
  let p := (a.planets.zip u.planets).foldl
    (fun s x => s + (x.2.mass • x.1.velocity).sdiv (m0 + x.2.mass)) Axes.zero
  { a with planets := (a.planets.zip u.planets).map fun x =>
      { x.1 with position := x.1.position + dt • (p - (x.2.mass • x.1.velocity).sdiv (m0 + x.2.mass)) } }

/-- whfast.rs 495-506 `jump_step`. -/
def jumpStep (c : Coordinates) (dt : F) (u : Sys F) (a : AltSys F) : AltSys F :=
  match c with
  | .jacobi => a
  | .democraticHeliocentric => democraticJump dt u a
  | .whds => whdsJump dt u a

/-- whfast.rs 575-591: the loop over the planets; `first` for the first one. -/
def jacobiKick (g dt : F) : Bool → F → List (Alt F × Axes F) → List (Alt F)
  | _, _, [] => []
  | first, eta, (a, acc) :: r =>
    let eta' := eta + a.mass
    let v := a.velocity + dt • acc
    let rj2i := lit 1 / (a.position.norm2 + lit 1e-12)
    let rj3im := FOps.sqrt rj2i * rj2i * g * eta'
    let v' := if first then v else v + (dt * rj3im) • a.position
    { a with velocity := v' } :: jacobiKick g dt false eta' r

/-- whfast.rs 566-592 `jacobi_interaction_step`. -/
def jacobiInteraction (g dt : F) (u : Sys F) (a : AltSys F) : AltSys F :=
  { a with planets := jacobiKick g dt true u.star.mass (a.planets.zip (jacobiAccelerations u)) }

/-- whfast.rs 594-608. -/
def democraticInteraction (dt : F) (u : Sys F) (a : AltSys F) : AltSys F :=
  { a with planets := (a.planets.zip u.planets).map fun x =>
      { x.1 with velocity := x.1.velocity + dt • x.2.acceleration } }

/-- whfast.rs 610-625. -/
def whdsInteraction (dt : F) (u : Sys F) (a : AltSys F) : AltSys F :=
  let m0 := u.star.mass
  { a with planets := (a.planets.zip u.planets).map fun x =>
      { x.1 with velocity := x.1.velocity + ((dt * (m0 + x.2.mass)) • x.2.acceleration).sdiv m0 } }

/-- whfast.rs 558-564 `interaction_step`; `g` is the constant G. -/
def interactionStep (c : Coordinates) (g dt : F) (u : Sys F) (a : AltSys F) : AltSys F :=
  match c with
  | .jacobi => jacobiInteraction g dt u a
  | .democraticHeliocentric => democraticInteraction dt u a
  | .whds => whdsInteraction dt u a

/-! ## Stumpff functions -/

/-- `cs[0..3]` or `gs[0..3]` (elements 4 and 5 stay zero and unused). -/
structure Gs (F : Type) where
  g0 : F
  g1 : F
  g2 : F
  g3 : F

/-- whfast.rs 846: `invfactorial` (constants 1/n!, entries used: 0 to 13). -/
def invFactorial (n : Nat) : F := lit (1 / (Nat.factorial n : ℚ))

/-- whfast.rs 847-852: reduce the argument by factors of four; `none`: not finished after `fuel` rounds
(an infinite argument never gets smaller). -/
def reduceArgument : Nat → F → Option (F × Nat)
  | 0, _ => none
  | fuel + 1, z =>
    if ltb (lit 0.1) (FOps.abs z) then
      match reduceArgument fuel (z / lit 4) with
      | none => none
      | some (w, n) => some (w, n + 1)
    else some (z, 0)

/-- whfast.rs 853-867: truncated series by Horner's scheme (`np` is 11, 9, 7, 5, 3). -/
def stumpffSeries (z : F) : Gs F :=
  let c := [11, 9, 7, 5, 3].foldl
    (fun (c : F × F) np => (invFactorial np - z * c.1, invFactorial (np - 1) - z * c.2))
    (invFactorial 13, invFactorial 12)
  { g3 := c.1, g2 := c.2, g1 := invFactorial 1 - z * c.1, g0 := invFactorial 0 - z * c.2 }

/-- whfast.rs 869-872: one quadrupling of the argument. -/
def quadruple (c : Gs F) : Gs F :=
  { g3 := (c.g2 + c.g0 * c.g3) * lit 0.25, g2 := c.g1 * c.g1 * lit 0.5, g1 := c.g0 * c.g1,
    g0 := lit 2 * c.g0 * c.g0 - lit 1 }

/-- whfast.rs 844-876 `stumpff_cs3`. -/
def stumpff (fuel : Nat) (z : F) : Option (Gs F) :=
  match reduceArgument fuel z with
  | none => none
  | some (w, n) => some (quadruple^[n] (stumpffSeries w))

/-- whfast.rs 838-841. -/
def scaleGs (x : F) (c : Gs F) : Gs F :=
  { c with g1 := c.g1 * x, g2 := c.g2 * (x * x), g3 := c.g3 * (x * x * x) }

/-- whfast.rs 835-842 `stiefel_gs3`. -/
def stiefel (fuel : Nat) (beta x : F) : Option (Gs F) :=
  match stumpff fuel (beta * (x * x)) with
  | none => none
  | some c => some (scaleGs x c)

/-! ## Kepler step -/

/-- whfast.rs 687-692: the orbit before the step. -/
structure Orbit (F : Type) where
  massG : F
  r0 : F
  v2 : F
  beta : F
  eta0 : F
  zeta0 : F

def orbitOf (massG : F) (r v : Axes F) : Orbit F :=
  let r0 := FOps.sqrt r.norm2
  let r0i := lit 1 / r0
  let beta := lit 2 * massG * r0i - v.norm2
  { massG := massG, r0 := r0, v2 := v.norm2, beta := beta, eta0 := r.dot v, zeta0 := massG - beta * r0 }

/-- The distance for the universal anomaly of `gs`, whfast.rs 728-729. -/
def Orbit.ri (o : Orbit F) (gs : Gs F) : F := lit 1 / (o.r0 + (o.eta0 * gs.g1 + o.zeta0 * gs.g2))

/-- whfast.rs 728-730 and 763-765: a Newton step. -/
def Orbit.newton (o : Orbit F) (dt : F) (gs : Gs F) (x : F) : F :=
  o.ri gs * (x * (o.eta0 * gs.g1 + o.zeta0 * gs.g2) - o.eta0 * gs.g2 - o.zeta0 * gs.g3 + dt)

/-- whfast.rs 758-772: Newton's method; the result says whether it converged and gives `gs` and `ri`. -/
def newtonLoop (G : F → Option (Gs F)) (o : Orbit F) (dt : F) :
    Nat → F → F → Gs F → F → Option (Bool × Gs F × F)
  | 0, _, _, gs, ri => some (false, gs, ri)
  | k + 1, x, oldX, _, _ =>
    match G x with
    | none => none
    | some gs =>
      let x' := o.newton dt gs x
      if eqb x' x || eqb x' oldX then some (true, gs, o.ri gs)
      else newtonLoop G o dt k x' x gs (o.ri gs)

/-- whfast.rs 737-752: the quartic solver; `prev` are the earlier iterates. -/
def quarticLoop (G : F → Option (Gs F)) (o : Orbit F) (dt : F) :
    Nat → F → List F → Gs F → Option (Bool × Gs F)
  | 0, _, _, gs => some (false, gs)
  | k + 1, x, prev, _ =>
    match G x with
    | none => none
    | some gs =>
      let f := o.r0 * x + o.eta0 * gs.g2 + o.zeta0 * gs.g3 - dt
      let fp := o.r0 + o.eta0 * gs.g1 + o.zeta0 * gs.g2
      let fpp := o.eta0 * gs.g0 + o.zeta0 * gs.g1
      let denom := fp + FOps.sqrt (FOps.abs (lit 16 * fp * fp - lit 20 * f * fpp))
      let x' := (x * denom - lit 5 * f) / denom
      if prev.any (fun y => eqb x' y) then some (true, gs)
      else quarticLoop G o dt k x' (x' :: prev) gs

/-- whfast.rs 792-805: bisection; `none` if it does not end after `fuel` rounds. -/
def bisectLoop (G : F → Option (Gs F)) (o : Orbit F) (dt : F) : Nat → F → F → F → Option (Gs F)
  | 0, _, _, _ => none
  | fuel + 1, x, xMin, xMax =>
    match G x with
    | none => none
    | some gs =>
      let s := o.r0 * x + o.eta0 * gs.g2 + o.zeta0 * gs.g3 - dt
      let xMax' := if leb (lit 0) s then x else xMax
      let xMin' := if leb (lit 0) s then xMin else x
      if leb (FOps.abs (xMax' - xMin') / xMax') (lit 1e-15) then some gs
      else bisectLoop G o dt fuel ((xMax' + xMin') / lit 2) xMin' xMax'

/-- `f64::is_nan`. -/
def isNan (x : F) : Bool := !(eqb x x)

/-- whfast.rs 810-832: the new position and velocity. -/
def keplerFinish (o : Orbit F) (dt : F) (gs : Gs F) (ri : F) (r v : Axes F) : Axes F × Axes F :=
  let r0i := lit 1 / o.r0
  let (gs, ri) : Gs F × F := if isNan ri then (⟨gs.g0, lit 0, lit 0, lit 0⟩, lit 0) else (gs, ri)
  let f := (-o.massG) * gs.g2 * r0i
  let g := dt - o.massG * gs.g3
  let fd := (-o.massG) * gs.g1 * r0i * ri
  let gd := (-o.massG) * gs.g2 * ri
  (r + (f • r + g • v), v + (fd • r + gd • v))

section
variable [FTrig F]

/-- whfast.rs 699, 700: `invperiod` and `x_per_period`. -/
def Orbit.invPeriod (o : Orbit F) : F := FOps.sqrt o.beta * o.beta / (lit 2 * FTrig.pi * o.massG)
def Orbit.xPerPeriod (o : Orbit F) : F := lit 2 * FTrig.pi / FOps.sqrt o.beta

/-- whfast.rs 698-719: the initial guess. -/
def Orbit.guess (o : Orbit F) (dt : F) : F :=
  if ltb (lit 0) o.beta then
    let r0i := lit 1 / o.r0
    let dtr0i := dt * r0i
    dtr0i * (lit 1 - dtr0i * o.eta0 * lit 0.5 * r0i)
  else lit 0

/-- whfast.rs 776-790: the bracket of the bisection. -/
def Orbit.bracket (o : Orbit F) (dt : F) : F × F :=
  if ltb (lit 0) o.beta then
    let xMin := o.xPerPeriod * FOps.floor (dt * o.invPeriod)
    (xMin, xMin + o.xPerPeriod)
  else
    let h2 := o.r0 * o.r0 * o.v2 - o.eta0 * o.eta0
    let q := h2 / o.massG / (lit 1 + FOps.sqrt (lit 1 - h2 * o.beta / (o.massG * o.massG)))
    let vq := FOps.sqrt h2 / q
    (lit 1 / (vq + o.r0 / dt), dt / q)

/-- whfast.rs 773-808: the fallback. -/
def bisect (G : F → Option (Gs F)) (o : Orbit F) (dt : F) (fuel : Nat) : Option (Gs F × F) :=
  let (xMin, xMax) := o.bracket dt
  match bisectLoop G o dt fuel ((xMax + xMin) / lit 2) xMin xMax with
  | none => none
  | some gs => some (gs, o.ri gs)

/-- whfast.rs 722-808: solve for the universal anomaly; returns `gs` and `ri`.  For hyperbolic orbits
`x_per_period` is NaN, so Newton's method is chosen (734); for elliptic ones it is not NaN.
WHFAST_NMAX_QUART = 64, WHFAST_NMAX_NEWT = 32 (the loops start at 1). -/
def keplerSolve (G : F → Option (Gs F)) (o : Orbit F) (dt : F) (fuel : Nat) : Option (Gs F × F) :=
  let x0 := o.guess dt
  match G x0 with
  | none => none
  | some gs =>
    let x := o.newton dt gs x0
    if ltb (lit 0) o.beta && ltb (lit 0.01 * o.xPerPeriod) (FOps.abs (x - x0)) then
      match quarticLoop G o dt 63 (o.beta * dt / o.massG) [] gs with
      | none => none
      | some (true, gs) => some (gs, o.ri gs)
      | some (false, _) => bisect G o dt fuel
    else
      match newtonLoop G o dt 31 x x0 gs (o.ri gs) with
      | none => none
      | some (true, gs, ri) => some (gs, ri)
      | some (false, _, _) => bisect G o dt fuel

/-- whfast.rs 676-833 `kepler_individual_step`: position and velocity after the step, `none` if a loop does
not end within `fuel` rounds.  The warning about long time steps (702-707) is left out. -/
def keplerStep (fuel : Nat) (massG dt : F) (r v : Axes F) : Option (Axes F × Axes F) :=
  let o := orbitOf massG r v
  match keplerSolve (stiefel fuel o.beta) o dt fuel with
  | none => none
  | some (gs, ri) => some (keplerFinish o dt gs ri r v)

/-- A Kepler step of the alternative coordinates of a planet. -/
def Alt.kepler (fuel : Nat) (massG dt : F) (a : Alt F) : Option (Alt F) :=
  match keplerStep fuel massG dt a.position a.velocity with
  | none => none
  | some (r, v) => some { a with position := r, velocity := v }

/-- whfast.rs 642-651, 653-661, 663-672: Kepler steps of all planets.  `running` is the mass of the star and,
for Jacobi coordinates, of the planets before. -/
def keplerPlanets (c : Coordinates) (fuel : Nat) (dt : F) : F → List (Alt F) → Option (List (Alt F))
  | _, [] => some []
  | running, a :: r =>
    let massG := match c with
      | .democraticHeliocentric => running
      | _ => running + a.massG
    let next := match c with
      | .jacobi => running + a.massG
      | _ => running
    match a.kepler fuel massG dt, keplerPlanets c fuel dt next r with
    | some b, some s => some (b :: s)
    | _, _ => none

/-- whfast.rs 628-640 `kepler_steps`: also moves the centre of mass. -/
def keplerSteps (c : Coordinates) (fuel : Nat) (dt : F) (u : Sys F) (a : AltSys F) : Option (AltSys F) :=
  match keplerPlanets c fuel dt u.star.massG a.planets with
  | none => none
  | some planets =>
    some { star := { a.star with position := a.star.position + dt • a.star.velocity }, planets := planets }

/-- whfast.rs 469-479 `iterate_position_and_velocity_with_whfasthelio_part1`. -/
def part1 (c : Coordinates) (fuel : Nat) (half : F) (u : Sys F) : Option (AltSys F × Sys F) :=
  match keplerSteps c fuel half u (toAlternative c u) with
  | none => none
  | some a =>
    let a := jumpStep c half u a
    some (a, fromAlternative c a u)

/-- whfast.rs 482-492 `iterate_position_and_velocity_with_whfasthelio_part2`; `u` holds the accelerations. -/
def part2 (c : Coordinates) (fuel : Nat) (g dt half : F) (a : AltSys F) (u : Sys F) : Option (Sys F) :=
  let a := interactionStep c g dt u a
  let a := jumpStep c half u a
  match keplerSteps c fuel half u a with
  | none => none
  | some a => some (fromAlternative c a u)

/-- whfast.rs 281-293 without the velocity dependent forces: drift, gravity, kick and drift.  `gravity`
computes the accelerations (`none`: panic). -/
def step (c : Coordinates) (fuel : Nat) (g dt half : F) (gravity : Sys F → Option (Sys F)) (u : Sys F) :
    Option (Sys F) :=
  match part1 c fuel half u with
  | none => none
  | some (a, u1) =>
    match gravity u1 with
    | none => none
    | some u2 => part2 c fuel g dt half a u2

end
end
end Posidonius.WHFast
