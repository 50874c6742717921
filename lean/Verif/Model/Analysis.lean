import Verif.Model.FrontEndTools
import Verif.Model.CaseJson

/-!
# The analysis of the history

/repo/posidonius/analysis/computation.py, /repo/posidonius/analysis/history.py 48-94 and /repo/scripts/explore_history.py
40-244.  The code works with arrays of snapshots, element by element; the model is one snapshot.  Numpy divides by zero without
an exception.  Plots and the text file are left out.
-/

namespace Posidonius.Analysis
open Tools (twoPi pi)
open Tools.Py (Body Elements keplerianElements)

variable {F : Type} [Add F] [Sub F] [Mul F] [Div F] [Neg F] [FOps F] [FTrig F] [FPow F]

/-- `np.power(x, k)`. -/
def npow (x : F) (k : ℚ) : F := FPow.powf x (lit k)

/-! ## Heating -/

/-- computation.py 7-9 `_Na1`. -/
def na1 (e : F) : F :=
  (lit 1 + lit 31 / lit 2 * (e * e) + lit 255 / lit 8 * npow e 4 + lit 185 / lit 16 * npow e 6 + lit 25 / lit 64 * npow e 8)
    / FPow.powf (lit 1 - e * e) (lit 15 / lit 2)

/-- computation.py 11-12 `_Na2`. -/
def na2 (e : F) : F :=
  (lit 1 + lit 15 / lit 2 * (e * e) + lit 45 / lit 8 * npow e 4 + lit 5 / lit 16 * npow e 6) / npow (lit 1 - e * e) 6

/-- computation.py 14-15 `_No2`. -/
def no2 (e : F) : F :=
  (lit 1 + lit 3 * (e * e) + lit 3 / lit 8 * npow e 4) / npow (lit 1 - e * e) 5

/-- computation.py 18-19 `_norb`. -/
def norb (G mp ms : F) : F := FOps.sqrt G * FOps.sqrt (mp + ms)

/-- `_norb(G,Mp,Ms) * np.power(a, -1.5)`, computation.py 24 and 28-29. -/
def meanMotion (G mp ms a : F) : F := norb G mp ms * npow a (-1.5)

/-- computation.py 22-24 `_Kplan`. -/
def kplan (k2dt G mp ms rp a : F) : F :=
  lit 3 / lit 2 * k2dt * (G * (mp * mp) / rp) * npow (ms / mp) 2 * npow (rp / a) 6 * npow (meanMotion G mp ms a) 2

/-- computation.py 26-29 `energydot`. -/
def energydot (a e rotp oblp G mp ms rp k2dt : F) : F :=
  lit 2 * kplan k2dt G mp ms rp a
    * (na1 e - lit 2 * na2 e * FTrig.cos oblp * (rotp / meanMotion G mp ms a)
      + (lit 1 + npow (FTrig.cos oblp) 2) / lit 2 * no2 e * FOps.sqrt (lit 1 - e * e)
        * npow (rotp / meanMotion G mp ms a) 2)

/-! ## Angles, periods, radii -/

/-- explore_history.py 43, 64 and 107: `np.sqrt(x^2 + y^2 + z^2)`. -/
def npNorm (v : Axes F) : F := FOps.sqrt (npow v.x 2 + npow v.y 2 + npow v.z 2)

/-- explore_history.py 85-87, 101-103 and 177-179: an angle in degrees from its cosine. -/
def degrees (c : F) : F := if leb c (lit 1) then FTrig.acos c * lit 180 / pi else lit (1 / 1000000)

/-- explore_history.py 68-88 `planet_obliquity` and 169-180 `star_obliquity`, in degrees: position and velocity of the planet,
rotation of planet or star. -/
def obliquity (r v spin : Axes F) : F :=
  let l := r.cross v
  let n := npNorm l
  let u : Axes F := ⟨l.x / n, l.y / n, l.z / n⟩
  degrees ((u.x * spin.x + u.y * spin.y + u.z * spin.z) / (npNorm u * npNorm spin))

/-- explore_history.py 90-104 `planet_precession_angle`, in degrees: the obliquity is in degrees as well. -/
def precessionAngle (r v spin : Axes F) : F :=
  degrees (lit 1 / FTrig.sin (obliquity r v spin) * (r.x * spin.x + r.y * spin.y + r.z * spin.z) / (npNorm r * npNorm spin))

/-- The constants `G_SI`, `M_SUN`, `AU`, `DAY` of constants.py. -/
structure Si (F : Type) where
  g : F
  mSun : F
  au : F
  day : F

/-- explore_history.py 106-109. -/
def corotationRadius (k : Si F) (ms mp : F) (spin : Axes F) : F :=
  FPow.powf (k.g * k.mSun * (ms + mp)) (lit 1 / lit 3) * FPow.powf (npNorm spin / k.day) (-(lit 2) / lit 3) / k.au

/-- explore_history.py 111-119: `none` is NaN. -/
def pseudoSynchronizationPeriod (k : Si F) (ms mp a e : F) : Option F :=
  if eqb e (lit 0) then
    let pseudoRot := lit 1 * FOps.sqrt (k.g * k.mSun * (ms + mp))
    some (lit 2 * pi / (pseudoRot * FPow.powf (a * k.au) (-(lit 3) / lit 2) * k.day))
  else none

/-- explore_history.py 188-189, in days. -/
def orbitalPeriod (k : Si F) (ms mp a : F) : F :=
  lit 2 * pi * FOps.sqrt (npow (a * k.au) 3 / (k.g * k.mSun * (ms + mp))) / k.day

/-! ## Tidal flux -/

/-- `dict.get(key)`. -/
def get : Json.Val → String → Option Json.Val
  | .record l, key => go key l
  | _, _ => none
where go (key : String) : Json.VFields → Option Json.Val
  | .nil => none
  | .cons n v l => if n = key then some v else go key l

/-- explore_history.py 140-146 `dissipation_factor_scale`; the test `'OrbitingBody' in tidal_effect` fails for the string
`Disabled`. -/
def dissipationScale (effect : Json.Val) : Json.Val :=
  if (get effect "OrbitingBody").isSome || (get effect "CentralBody").isSome then
    match get effect "ConstantTimeLag" with
    | none => .f64 0
    | some m => (get m "dissipation_factor_scale").getD (.f64 0)
  else .f64 0

/-- explore_history.py 125-139 and 147: the product of the flux with the scale factor, which `real` reads. -/
def meanTidalFlux (k : Si F) (real : Json.Val → F) (effect : Json.Val) (a e spin obliquity mp ms rp : F) : F :=
  energydot (a * k.au) e (spin / k.day) (obliquity * pi / lit 180) k.g (mp * k.mSun) (ms * k.mSun) (rp * k.au)
      (lit 0.002465278 * k.day)
    / (lit 4 * pi * npow (rp * k.au) 2) * real (dissipationScale effect)

/-! ## Angular momentum -/

/-- explore_history.py 220-236: one turn of the loop on mass so far, terms subtracted from positions and velocities, and the
terms `a*rxv` of lines 239-240, which are added up one after the other. -/
def jacobiStep (s : F × List (Axes F × Axes F) × Axes F) (b : Body F) : F × List (Axes F × Axes F) × Axes F :=
  let numerator := s.1 * b.mass
  let total := s.1 + b.mass
  let a := numerator / total
  let (r, v) := s.2.1.foldl (fun p t => (p.1.sub t.1, p.2.sub t.2)) (b.position, b.velocity)
  (total, s.2.1 ++ [(Axes.smul (b.mass / total) r, Axes.smul (b.mass / total) v)], s.2.2.add (Axes.smul a (r.cross v)))

/-- explore_history.py 213-240 `lorb`: the planets have coordinates relative to the star. -/
def orbitalAngularMomentum (starMass : F) (planets : List (Body F)) : Axes F :=
  (planets.foldl jacobiStep (starMass, [], Axes.zero)).2.2

/-! ## Elements -/

/-- history.py 67-72. -/
def relativeTo (star b : Body F) : Body F :=
  { b with position := b.position.sub star.position, velocity := b.velocity.sub star.velocity }

/-- history.py 66-87: `done` are the planets that have already been made heliocentric. -/
def classifyLoop (G : F) (star : Body F) : List (Body F) → List (Body F) → List (Option (Elements F) × Body F)
  | _, [] => []
  | done, b :: rest =>
    let b' := relativeTo star b
    (keplerianElements G b'.mass b'.position b'.velocity
      (⟨star.mass, ⟨lit 0, lit 0, lit 0⟩, ⟨lit 0, lit 0, lit 0⟩⟩ :: (done ++ rest)), b')
      :: classifyLoop G star (done ++ [b']) rest

/-- history.py 48-94 `classify`: the elements and coordinates of the bodies 1, 2, ..., whichever the reference is.  `none` if the
reference does not exist. -/
def classify (G : F) (bodies : List (Body F)) (reference : Nat) : Option (List (Option (Elements F) × Body F)) :=
  match bodies[reference]? with
  | none => none
  | some star => some (classifyLoop G star [] (bodies.drop 1))

end Posidonius.Analysis
