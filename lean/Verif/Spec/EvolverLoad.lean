import Verif.Model.EvolverLoad
import Verif.Spec.Evolver
import Verif.Model.RealTrig

/-! # Specification: the tables of an evolving body

What the published tables are: for which masses there is one, what it is called, and what its columns
contain. -/

namespace Posidonius.Evolution

/-- Gallet & Bolmont 2017: label in the name of the file, mass in solar masses. -/
def galletGrid : List (String × ℝ) :=
  [("03", 0.3), ("04", 0.4), ("06", 0.6), ("07", 0.7), ("08", 0.8), ("09", 0.9), ("10", 1), ("11", 1.1),
   ("12", 1.2), ("14", 1.4)]

/-- Bolmont & Mathis 2016. -/
def bolmontGrid : List (String × ℝ) :=
  [("04", 0.4), ("05", 0.5), ("06", 0.6), ("07", 0.7), ("08", 0.8), ("09", 0.9), ("10", 1), ("11", 1.1),
   ("12", 1.2), ("13", 1.3), ("14", 1.4), ("15", 1.5)]

/-- Leconte et al. 2011, in the order of the columns of the auxiliary file. -/
def leconteGrid : List (String × ℝ) :=
  [("10", 0.010), ("12", 0.012), ("15", 0.015), ("20", 0.020), ("30", 0.030), ("40", 0.040), ("50", 0.050),
   ("60", 0.060), ("70", 0.070), ("72", 0.072), ("75", 0.075), ("80", 0.080)]

/-- Baraffe et al. 2015, below the hydrogen-burning limit. -/
def baraffeDwarfs : List (String × ℝ) :=
  [("0010", 0.010), ("0015", 0.015), ("0020", 0.020), ("0030", 0.030), ("0040", 0.040), ("0050", 0.050),
   ("0060", 0.060), ("0070", 0.070), ("0072", 0.072), ("0075", 0.075), ("0080", 0.080)]

/-- Baraffe et al. 2015, above. -/
def baraffeStars : List (String × ℝ) :=
  [("0090", 0.09), ("0110", 0.11), ("0130", 0.13), ("0150", 0.15), ("0170", 0.17), ("0200", 0.2),
   ("0300", 0.3), ("0400", 0.4), ("0500", 0.5), ("0600", 0.6), ("0700", 0.7), ("0800", 0.8), ("0900", 0.9),
   ("1000", 1), ("1100", 1.1), ("1200", 1.2), ("1300", 1.3), ("1400", 1.4)]

/-- Age in days of a record, from its first field: years, or the logarithm of years. -/
noncomputable def ageInDays : EvolutionType → ℝ → ℝ
  | .galletBolmont2017, x => (10 : ℝ) ^ x * 365.25
  | _, x => x * 365.25

/-- Field of a record with a given quantity. -/
def fieldOf : EvolutionType → Quantity → Nat
  | .baraffe2015, .radius => 2
  | .galletBolmont2017, .radius => 3
  | _, .radius => 1
  | _, .radiusOfGyration2 => 3
  | _, .loveNumber => 2
  | .galletBolmont2017, .inverseTidalQFactor => 10
  | .leconteChabrier2013 _, .inverseTidalQFactor => 5
  | _, .inverseTidalQFactor => 2

/-- The value of a quantity, in the units of the simulation, from its field.  Radii are in solar radii or
in metres; the tidal quality factor of Gallet & Bolmont is given by its logarithm. -/
noncomputable def valueOf (env : LoadEnv ℝ) : Kind ℝ → Quantity → ℝ → ℝ
  | .leconteChabrier2013 _, .radius, x => x * env.m2au
  | .baraffe1998 m, .radius, x => if |m - 1| ≤ 1e-7 then x * env.m2au else x * env.rSun
  | _, .radius, x => x * env.rSun
  | .galletBolmont2017 _, .inverseTidalQFactor, x => 1 / (10 : ℝ) ^ x
  | _, _, x => x

/-- The time of a record; a time that is not a number counts as -1. -/
noncomputable def timeField (row : List (Option ℝ)) : ℝ :=
  match row[0]? with
  | some (some v) => v
  | _ => -1

/-- The records of a file after the column headers: the first line is taken for headers if its time is
negative or not a number. -/
noncomputable def dataRows : List (List (Option ℝ)) → List (List (Option ℝ))
  | [] => []
  | row :: rows => if timeField row < 0 then rows else row :: rows

end Posidonius.Evolution
