import Verif.Model.Gravity

/-!
# The LeapFrog step

/repo/src/integrator/leapfrog.rs 180-206 (the dynamical part of `iterate`), 234-262.
The bookkeeping of `iterate` (time limit, snapshots) is in `Model/Driver.lean`.
-/

namespace Posidonius.Leapfrog
open Posidonius.Gravity

/-- What a step reads and writes of a particle: the body, the spin angular momentum and its rate. -/
structure Part (F : Type) where
  body : Body F
  angularMomentum : Axes F
  dAngularMomentumDt : Axes F

/-- Dynamical state: clock and particles. -/
structure Dyn (F : Type) (n : Nat) where
  time : F
  parts : Fin n → Part F

/-- The results of the two calls of `calculate_additional_effects` (leapfrog.rs 182-187, 194-200): the
rates `dangular_momentum_dt` of the first call, the rates and the additional accelerations of the
second. Abstract: any function of the state. -/
structure Effects (F : Type) (n : Nat) where
  firstRates : Dyn F n → Fin n → Axes F
  secondRates : Dyn F n → Fin n → Axes F
  accelerations : Dyn F n → Fin n → Axes F

section
variable {F : Type} [Add F] [Sub F] [Mul F] [Div F] [Neg F] [FOps F] {n : Nat}

/-- No effect besides gravity: the rates are left as they are (universe.rs 516-519 is not reached), the
additional accelerations are set to zero (universe.rs 417-423). -/
def noEffects : Effects F n where
  firstRates s i := (s.parts i).dAngularMomentumDt
  secondRates s i := (s.parts i).dAngularMomentumDt
  accelerations _ _ := Axes.zero

/-- `angular_momentum + dangular_momentum_dt*half_time_step` (leapfrog.rs 240-242, 257-259). -/
def kickSpin (half : F) (p : Part F) : Axes F :=
  ⟨p.angularMomentum.x + p.dAngularMomentumDt.x * half,
   p.angularMomentum.y + p.dAngularMomentumDt.y * half,
   p.angularMomentum.z + p.dAngularMomentumDt.z * half⟩

/-- leapfrog.rs 234-245 `integrator_part1`. -/
def part1 (half : F) (s : Dyn F n) : Dyn F n where
  time := s.time + half
  parts i :=
    let p := s.parts i
    { p with
      body := { p.body with position := p.body.position + half • p.body.velocity }
      angularMomentum := kickSpin half p }

/-- leapfrog.rs 248-262 `integrator_part2`; `a` are the inertial accelerations. -/
def part2 (dt half : F) (a : Fin n → Axes F) (s : Dyn F n) : Dyn F n where
  time := s.time + half
  parts i :=
    let p := s.parts i
    let velocity := p.body.velocity + dt • a i
    { p with
      body := { p.body with velocity := velocity, position := p.body.position + half • velocity }
      angularMomentum := kickSpin half p }

/-- Store the rates computed by `calculate_additional_effects`. -/
def setRates (r : Fin n → Axes F) (s : Dyn F n) : Dyn F n :=
  { s with parts := fun i => { s.parts i with dAngularMomentumDt := r i } }

/-- leapfrog.rs 180-204: effects, first drift, gravity (or a panic), effects, kick and second drift.
`roche` and `mm`: stored Roche radii and index of the most massive body. -/
def step (g dt half : F) (roche : Fin n → Fin n → F) (mm : Nat) (e : Effects F n) (s : Dyn F n) :
    Except Stop (Dyn F n) :=
  let s1 := part1 half (setRates (e.firstRates s) s)
  match gravity g (fun i => (s1.parts i).body) roche .none mm with
  | .error x => .error x
  | .ok a =>
    let extra := e.accelerations s1
    let s2 := setRates (e.secondRates s1) s1
    .ok (part2 dt half (fun i => a i + extra i) s2)

/-- `k` steps. -/
def steps (g dt half : F) (roche : Fin n → Fin n → F) (mm : Nat) (e : Effects F n) :
    Nat → Dyn F n → Except Stop (Dyn F n)
  | 0, s => .ok s
  | k + 1, s =>
    match step g dt half roche mm e s with
    | .error x => .error x
    | .ok s' => steps g dt half roche mm e k s'

end
end Posidonius.Leapfrog
