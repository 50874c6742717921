import Verif.Model.FrontEndTools

/-!
# Resonances in the analysis

/repo/posidonius/analysis/resonances.py.  Arrays over time are lists; an array of elements of two planets is a list of pairs.
-/

namespace Posidonius.Analysis
open Tools.Py (Elements)

variable {F : Type} [Add F] [Sub F] [Mul F] [Div F] [Neg F] [FOps F] [FTrig F]

/-- `x % 360.` of Python and numpy: the result has the sign of 360. -/
def mod360 (x : F) : F := x - lit 360 * FOps.floor (x / lit 360)

/-- Lines 143-145: argument of the perihelion, longitude of the node and mean anomaly, in degrees. -/
structure Angles (F : Type) where
  g : F
  n : F
  m : F

/-- resonances.py 147-177 `calculate_resonance_data`, the angles: both longitudes are computed from that of the perihelion.
`RAD2DEG` is `180./PI`. -/
def resonanceAngles (el : Elements F) : Angles F :=
  let deg := lit 180 / FTrig.pi
  let longitudeOfPerihelion := mod360 (el.longitudeOfPerihelion * deg)
  let longitudeOfAscendingNode := mod360 (el.longitudeOfPerihelion * deg)
  ⟨mod360 (longitudeOfPerihelion - longitudeOfAscendingNode), longitudeOfAscendingNode, mod360 (el.meanAnomaly * deg)⟩

/-- resonances.py 175-176: distances of perihelion and aphelion. -/
def apsides (el : Elements F) : F × F :=
  (el.semiMajorAxis * (lit 1 - el.eccentricity), el.semiMajorAxis * (lit 1 + el.eccentricity))

/-- resonances.py 96-97 and 120-124: an angle folded to the 360 degrees around the centre. -/
def fold (center x : F) : F :=
  let phi := mod360 x
  if ltb phi (center - lit 180) then phi + lit 360
  else if ltb (center + lit 180) phi then phi - lit 360 else phi

/-- resonances.py 104-124: resonant angle number `i` of the resonance `inner : outer` at one time. -/
def resonantAngle (center : F) (inner outer : Nat) (a b : Angles F) (i : Nat) : F :=
  let q := inner - outer
  let periInner := a.g + a.n
  let meanInner := a.m + periInner
  let periOuter := b.g + b.n
  let meanOuter := b.m + periOuter
  let temp := lit inner * meanOuter - lit outer * meanInner
  fold center (temp - lit i * periInner - lit (q - i : Nat) * periOuter)

/-- Sum of a list, as `np.sum`. -/
def total (l : List F) : F := l.foldl (· + ·) (lit 0)

/-- `np.std`. -/
def std (l : List F) : F :=
  let n : F := lit l.length
  let mean := total l / n
  FOps.sqrt (total (l.map fun x => (x - mean) * (x - mean)) / n)

/-- resonances.py 71-145 `is_resonance`: the least standard deviation is below the threshold if one of them is.
`inner ≥ outer`, as is the case for period ratios of at least one. -/
def isResonance (center threshold : F) (inner outer : Nat) (series : List (Angles F × Angles F)) : Bool :=
  (List.range (inner - outer + 1)).any fun i =>
    ltb (std (series.map fun s => resonantAngle center inner outer s.1 s.2 i)) threshold

/-- resonances.py 38-49: the period ratios to test, in exact arithmetic. -/
def testedPeriods (ratio uncertainty : ℚ) (sampling : Nat) : List ℚ :=
  let min0 := ratio * (1 - uncertainty)
  let max := ratio * (1 + uncertainty)
  let min := if min0 < 1 then 1 else min0
  let delta := (max - min) / sampling
  (List.range sampling).map fun i : Nat => min + delta * (i : ℚ)

/-- resonances.py 15-69 `get_possible_resonances`; `limit` is `Fraction.limit_denominator`. -/
def possibleResonances (limit : Nat → ℚ → ℚ) (ratio uncertainty : ℚ) (denominatorLimit numeratorLimit sampling : Nat) : List ℚ :=
  let resonances := ((testedPeriods ratio uncertainty sampling).map (limit denominatorLimit)).dedup
  let sorted := resonances.mergeSort fun a b => decide (a.num < b.num) || (decide (a.num = b.num) && decide (a ≤ b))
  sorted.filter fun r => decide (r.num < numeratorLimit)

/-- resonances.py 179-203 `get_subplot_shape`, with as many turns of the loop as `fuel` allows. -/
def subplotLoop (plots : Nat) : Nat → Nat → Nat → Option (Nat × Nat)
  | fuel, x, y =>
    if x * y < plots then
      match fuel with
      | 0 => none
      | fuel + 1 => if x = y then subplotLoop plots fuel x (y + 1) else subplotLoop plots fuel (x + 1) y
    else some (x, y)

def subplotShape (plots fuel : Nat) : Option (Nat × Nat) := subplotLoop plots fuel 1 1

end Posidonius.Analysis
