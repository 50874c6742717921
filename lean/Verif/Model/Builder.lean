import Verif.Model.Config
import Verif.Model.Integrators

/-! How a program puts a simulation together.

/repo/src/particles/particle.rs 57-201 (constructor and setters of a particle), the constructors of the effects, and
the constructors of the integrators. -/

namespace Posidonius.Univ
open Evolution (EvolutionType)

section
variable {F : Type} [Add F] [Sub F] [Mul F] [Div F] [Neg F] [FOps F]

/-- rotational_flattening/common.rs 63-92. -/
def Flattening.new (effect : FlatteningEffect F) : Flattening F :=
  { effect := effect, distance := lit 0, rDotStellarSpin := lit 0, rDotPlanetarySpin := lit 0, radial := lit 0,
    factorStar := lit 0, factorPlanet := lit 0, orthogonalStar := lit 0, orthogonalPlanet := lit 0,
    shape := Axes.zero, acceleration := Axes.zero, dAngularMomentumDt := Axes.zero, position := Axes.zero,
    velocity := Axes.zero }

/-- general_relativity.rs 61-84. -/
def Gr.new (effect : GrEffect) : Gr F :=
  { effect := effect, distance := lit 0, radialVelocity := lit 0, normVelocity := lit 0, normVelocity2 := lit 0,
    factor := lit 0, acceleration := Axes.zero, dAngularMomentumDt := Axes.zero, position := Axes.zero,
    velocity := Axes.zero }

/-- disk.rs 58-79. -/
def Disk.new (effect : DiskEffect F) : Disk F :=
  { effect := effect, distance := lit 0, normVelocity := lit 0, normVelocity2 := lit 0, migrationTimescale := lit 0,
    acceleration := Axes.zero, position := Axes.zero, velocity := Axes.zero }

/-- particle.rs 57-97 `Particle::new`. -/
def Particle.new (k : Consts F) (mass radius radiusOfGyration : F) (position velocity spin : Axes F) : Particle F :=
  let rg2 := ipow radiusOfGyration 2
  let inertia := mass * rg2 * ipow radius 2
  { id := 0, mass := mass, massG := mass * k.g, radius := radius,
    inertialPosition := Axes.zero, inertialVelocity := Axes.zero, inertialAcceleration := Axes.zero,
    inertialAdditionalAcceleration := Axes.zero,
    heliocentricPosition := position, heliocentricVelocity := velocity,
    heliocentricDistance := lit 0, heliocentricRadialVelocity := lit 0, heliocentricNormVelocity := lit 0,
    heliocentricNormVelocity2 := lit 0,
    spin := spin, normSpin2 := ipow spin.x 2 + ipow spin.y 2 + ipow spin.z 2,
    angularMomentum := ⟨inertia * spin.x, inertia * spin.y, inertia * spin.z⟩,
    dAngularMomentumDt := Axes.zero, radiusOfGyration2 := rg2, momentOfInertia := inertia,
    tides := Tides.new .disabled, flattening := Flattening.new .disabled, gr := Gr.new .disabled,
    wind := Wind.new false (lit 0) (lit 0), disk := Disk.new .disabled, evolution := .nonEvolving }

/-- The arguments of the setters of a particle, each made by the constructor of the effect (the fields of the Rust
structures are public, so that a program could also make them differently). -/
inductive Setting (F : Type) where
  | tides (effect : TidesEffect F)
  | flattening (effect : FlatteningEffect F)
  | gr (effect : GrEffect)
  | wind (interaction : Bool) (kFactor rotationSaturation : F)
  | disk (effect : DiskEffect F)
  | evolution (evolution : EvolutionType)

/-- particle.rs 154-163: whether the tides are those of the creep model, and their viscosity. -/
def TidesEffect.creep : TidesEffect F → Option F
  | .central (.creepCoplanar v) | .orbiting (.creepCoplanar v) => some v
  | _ => none

/-- particle.rs 164-173. -/
def FlatteningEffect.creep : FlatteningEffect F → Option F
  | .central (.creepCoplanar v) | .orbiting (.creepCoplanar v) => some v
  | _ => none

/-- particle.rs 143-184 `check_uniform_viscosity_coefficient`; `false` is a panic. -/
def viscosityOk (t : TidesEffect F) (f : FlatteningEffect F) : Bool :=
  match t, f with
  | .disabled, _ => true
  | _, .disabled => true
  | t, f =>
    match t.creep, f.creep with
    | some _, none => false
    | none, some _ => false
    | none, none => true
    | some a, some b => !ltb (lit (1 / 10000000000000000)) (FOps.abs (a - b))

/-- The assignment of a setter. -/
def Setting.assign (p : Particle F) : Setting F → Particle F
  | .tides e => { p with tides := Tides.new e }
  | .flattening e => { p with flattening := Flattening.new e }
  | .gr e => { p with gr := Gr.new e }
  | .wind i a b => { p with wind := Wind.new i a b }
  | .disk e => { p with disk := Disk.new e }
  | .evolution e => { p with evolution := e }

/-- particle.rs 133-201: the setters; those of tides and flattening check the viscosities afterwards.  Warnings are
not modelled. -/
def Setting.apply (p : Particle F) (s : Setting F) : Option (Particle F) :=
  let q := s.assign p
  match s with
  | .tides _ | .flattening _ => if viscosityOk q.tides.effect q.flattening.effect then some q else none
  | _ => some q

/-- A sequence of calls of setters. -/
def configure (p : Particle F) : List (Setting F) → Option (Particle F)
  | [] => some p
  | s :: l =>
    match s.apply p with
    | none => none
    | some q => configure q l

variable {n : Nat}

/-- ias15.rs 240-349 `Ias15::new`: all arrays are zero. -/
def ias15Zero : Ias15.Comp F :=
  let s : Ias15.Series F := ⟨lit 0, lit 0, .zero, .zero, .zero, .zero, .zero, .zero⟩
  ⟨lit 0, lit 0, lit 0, lit 0, lit 0, lit 0, lit 0, lit 0, lit 0, lit 0, lit 0, s, s⟩

/-- ias15.rs 240-349 `Ias15::new`, without the driver's fields. -/
def ias15New (dt : F) (u : Universe F n) : Ias15Run F n :=
  { world := u, arrays := fun _ => ⟨ias15Zero, ias15Zero, ias15Zero⟩, time := lit 0, dt := dt, last := lit 0 }

/-- whfast.rs 143-165 `WHFast::new`, without the driver's fields; the alternative coordinates are computed at the
beginning of every step.  The errors of the array elements behind `n_particles` are never used. -/
def whfastNew (u : Universe F n) : WHFastRun F n :=
  { world := u, errors := List.replicate n ⟨Axes.zero, Axes.zero⟩, time := lit 0 }

end
end Posidonius.Univ
