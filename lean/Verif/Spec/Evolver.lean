import Verif.Model.Evolver

/-! # Specification: what an evolving body should look like -/

namespace Posidonius.Evolution
open Posidonius.Interp
variable {F : Type} [Add F] [Sub F] [Mul F] [Div F] [FOps F]

/-- The quantities that can be asked for. -/
inductive Quantity where
  | radius
  | radiusOfGyration2
  | loveNumber
  | inverseTidalQFactor
deriving DecidableEq, Repr

/-- Which quantities a model of evolution tabulates. -/
def Tabulated : EvolutionType → Quantity → Bool
  | .nonEvolving, _ => false
  | _, .radius => true
  | .baraffe2015, .radiusOfGyration2 | .leconte2011, .radiusOfGyration2
  | .leconteChabrier2013 _, .radiusOfGyration2 => true
  | .leconteChabrier2013 _, .loveNumber => true
  | .bolmontMathis2016, .inverseTidalQFactor | .galletBolmont2017, .inverseTidalQFactor
  | .leconteChabrier2013 true, .inverseTidalQFactor => true
  | _, _ => false

def Evolver.column (e : Evolver F) : Quantity → List F
  | .radius => e.radius
  | .radiusOfGyration2 => e.radiusOfGyration2
  | .loveNumber => e.loveNumber
  | .inverseTidalQFactor => e.inverseTidalQFactor

/-- The value at time `t` from the complete table; the current value if the model has no table. -/
def tableValue (e : Evolver F) (q : Quantity) (t current : F) : Option F :=
  if Tabulated e.evolution q then (linearInterpolation t e.time (e.column q)).map Prod.fst
  else some current

/-- The lookup of a quantity. -/
def query (e : Evolver F) (q : Quantity) (t current : F) : Option (F × Evolver F) :=
  match q with
  | .radius => e.queryRadius t current
  | .radiusOfGyration2 => e.queryRadiusOfGyration2 t current
  | .loveNumber => e.queryLoveNumber t current
  | .inverseTidalQFactor => e.queryInverseTidalQFactor t current

/-- A sequence of lookups: the values and the final state. -/
def queries (e : Evolver F) : List (Quantity × F × F) → Option (List F × Evolver F)
  | [] => some ([], e)
  | (q, t, current) :: rest =>
    match query e q t current with
    | none => none
    | some (v, e') =>
      match queries e' rest with
      | none => none
      | some (vs, e'') => some (v :: vs, e'')

/-- The tables are not empty, and every tabulated column is as long as the column of times. -/
structure Consistent (e : Evolver F) : Prop where
  nonempty : e.evolution ≠ .nonEvolving → e.time ≠ []
  lengths : ∀ q, Tabulated e.evolution q → (e.column q).length = e.time.length

end Posidonius.Evolution
