import Verif.Model.Timeline

/-!
# One resonance of two planets

/repo/scripts/explore_single_resonance.py, the data of the figure.  The series of all planets have the same length, as
`history.read` leaves whole snapshots only.
-/

namespace Posidonius.Analysis

variable {F : Type} [Add F] [Sub F] [Mul F] [Div F] [Neg F] [FOps F] [FTrig F] [FPow F]

/-- `l[i]` in Python: negative indices count from the end; `none` is `IndexError`. -/
def pyIndex {A : Type} (l : List A) (i : Int) : Option A :=
  if 0 ≤ i then l[i.toNat]? else if -(l.length : Int) ≤ i then l[(l.length + i).toNat]? else none

/-- Lines 98-102 and 105-109 with `ANGLE_MIN` and `ANGLE_MAX` of lines 17-18. -/
def foldAngle (x : F) : F :=
  let phi := mod360 x
  if ltb phi (lit (-90)) then phi + lit 360
  else if ltb (lit 270) phi then phi - lit 360 else phi

/-- What is plotted over time: ratio of the periods, difference of the perihelia and resonant angles; lines and rows of the
figure. -/
structure Figure (F : Type) where
  ratio : List F
  delta : List F
  phi : List (List F)
  shape : Option (Nat × Nat)

/-- Lines 80-116 and 137 for the series of two planets.  The number of the resonant angles is `q + 1`. -/
def figure (innerPeriod outerPeriod : Int) (inner outer : List (Sample F)) : Figure F :=
  let q := innerPeriod - outerPeriod
  let series := inner.zip outer
  { ratio := series.map fun s => FPow.powf (s.2.a / s.1.a) (lit 1.5),
    delta := series.map fun s => foldAngle ((s.2.angles.g + s.2.angles.n) - (s.1.angles.g + s.1.angles.n)),
    phi := (List.range (q + 1).toNat).map fun (i : Nat) => series.map fun s =>
      let periInner := s.1.angles.g + s.1.angles.n
      let meanInner := s.1.angles.m + periInner
      let periOuter := s.2.angles.g + s.2.angles.n
      let meanOuter := s.2.angles.m + periOuter
      let temp := lit innerPeriod * meanOuter - lit outerPeriod * meanInner
      foldAngle (temp - lit i * periInner - lit ((q - i : Int) : ℚ) * periOuter),
    shape := subplotShape (q + 3).toNat (q + 3).toNat }

/-- The script: `none` if it ends with an exception.  The time is taken from the planet after the inner one (line 62). -/
def singleResonance (innerPlanet outerPlanet innerPeriod outerPeriod : Int) (planets : List (List (Sample F))) :
    Option (Figure F) :=
  if outerPlanet < innerPlanet then none
  else if innerPeriod < outerPeriod then none
  else match pyIndex planets innerPlanet, pyIndex planets (innerPlanet - 1), pyIndex planets (outerPlanet - 1) with
    | some _, some inner, some outer => some (figure innerPeriod outerPeriod inner outer)
    | _, _, _ => none

end Posidonius.Analysis
