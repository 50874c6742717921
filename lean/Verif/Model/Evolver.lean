import Verif.Model.Interp

/-!
# Evolving bodies

/repo/src/effects/evolution.rs 9-46, 446-567.  The tables themselves (reading of files, choice by mass,
lines 60-444) are arbitrary lists here.
-/

namespace Posidonius.Evolution
open Posidonius.Interp

/-- evolution.rs 9-17 (the masses only select the file). -/
inductive EvolutionType where
  | galletBolmont2017
  | bolmontMathis2016
  | baraffe2015
  | leconte2011
  | baraffe1998
  | leconteChabrier2013 (dynamicalTides : Bool)
  | nonEvolving
deriving DecidableEq, Repr

/-- evolution.rs 20-28. -/
structure Evolver (F : Type) where
  evolution : EvolutionType
  time : List F
  radius : List F
  radiusOfGyration2 : List F
  loveNumber : List F
  inverseTidalQFactor : List F
  leftIndex : Nat

variable {F : Type} [Add F] [Sub F] [Mul F] [Div F] [FOps F]

/-- evolution.rs 449-456 `idx`. -/
def Evolver.idx (e : Evolver F) : Nat :=
  let securityShift := 10
  if e.leftIndex > securityShift then e.leftIndex - securityShift else 0

/-- The common part of the four lookups: interpolate in the tables from `idx()` on and add the local left
index to `left_index` (e.g. evolution.rs 461-463).  `none`: panic (slice or index out of bounds). -/
def Evolver.lookup (e : Evolver F) (t : F) (column : List F) : Option (F × Evolver F) :=
  match linearInterpolation t (e.time.drop e.idx) (column.drop e.idx) with
  | none => none
  | some (v, left) => some (v, { e with leftIndex := e.leftIndex + left })

/-- evolution.rs 458-465. -/
def Evolver.queryRadius (e : Evolver F) (t current : F) : Option (F × Evolver F) :=
  match e.evolution with
  | .nonEvolving => some (current, e)
  | _ => e.lookup t e.radius

/-- evolution.rs 467-476. -/
def Evolver.queryRadiusOfGyration2 (e : Evolver F) (t current : F) : Option (F × Evolver F) :=
  match e.evolution with
  | .baraffe2015 => e.lookup t e.radiusOfGyration2
  | .leconte2011 => e.lookup t e.radiusOfGyration2
  | .leconteChabrier2013 _ => e.lookup t e.radiusOfGyration2
  | _ => some (current, e)

/-- evolution.rs 478-485. -/
def Evolver.queryLoveNumber (e : Evolver F) (t current : F) : Option (F × Evolver F) :=
  match e.evolution with
  | .leconteChabrier2013 _ => e.lookup t e.loveNumber
  | _ => some (current, e)

/-- evolution.rs 487-513. -/
def Evolver.queryInverseTidalQFactor (e : Evolver F) (t current : F) : Option (F × Evolver F) :=
  match e.evolution with
  | .bolmontMathis2016 => e.lookup t e.inverseTidalQFactor
  | .galletBolmont2017 => e.lookup t e.inverseTidalQFactor
  | .leconteChabrier2013 true => e.lookup t e.inverseTidalQFactor
  | _ => some (current, e)

/-- The tides of a particle, as far as needed: the Love number of the constant time lag model, or another
model / no tides. -/
inductive Tides (F : Type) where
  | constantTimeLag (loveNumber : F)
  | other

/-- The part of `Particle` read or written here. -/
structure Part (F : Type) where
  mass : F
  radius : F
  radiusOfGyration2 : F
  momentOfInertia : F
  normSpinVector2 : F
  lagAngle : F
  tides : Tides F

/-- evolution.rs 516-546 `calculate_particles_non_spin_dependent_evolving_quantities` for one particle.
In line 535 `match &particle.tides.effect` gives a reference and the pattern
`TidalModel::ConstantTimeLag(mut params)` of line 537 copies the parameters (they are `Copy`): the
assignment of line 538 changes the copy, which is then dropped. -/
def nonSpinDependent (t : F) (p : Part F) (e : Evolver F) : Option (Part F × Evolver F) :=
  match e.queryRadius t p.radius with
  | none => none
  | some (newRadius, e1) =>
    match e1.queryRadiusOfGyration2 t p.radiusOfGyration2 with
    | none => none
    | some (newRg2, e2) =>
      let p1 : Part F :=
        if !(eqb newRadius p.radius) || !(eqb newRg2 p.radiusOfGyration2) then
          { p with radius := newRadius, radiusOfGyration2 := newRg2,
                   momentOfInertia := p.mass * newRg2 * (newRadius * newRadius) }
        else p
      match p1.tides with
      | .other => some (p1, e2)
      | .constantTimeLag love =>
        match e2.queryLoveNumber t love with
        | none => none
        | some (newLove, e3) =>
          let _params : Tides F := .constantTimeLag newLove
          some (p1, e3)

/-- constants.rs `SUN_DYN_FREQ_2` is a parameter.  evolution.rs 548-567
`calculate_particles_spin_dependent_evolving_quantities` for one particle. -/
def spinDependent (sunDynFreq2 : F) (t : F) (p : Part F) (e : Evolver F) : Option (Part F × Evolver F) :=
  match e.evolution with
  | .bolmontMathis2016 | .galletBolmont2017 | .leconteChabrier2013 true =>
    match e.queryInverseTidalQFactor t (lit 0) with
    | none => none
    | some (q, e1) =>
      let epsilonSquared := p.normSpinVector2 / sunDynFreq2
      some ({ p with lagAngle := lit 3 * epsilonSquared * q / lit 4 }, e1)
  | _ => some ({ p with lagAngle := lit 0 }, e)

end Posidonius.Evolution
