import Verif.Model.FrontEndEvolver
import Verif.Model.Constants

/-!
# The Python front end: radii of planets, rotations and interpolation

/repo/posidonius/tools.py 62-77, 131-152 and 1078-1107.  `none` is an exception.
-/

namespace Posidonius.Tools.Py

variable {F : Type} [Add F] [Sub F] [Mul F] [Div F] [Neg F] [FOps F] [FTrig F]

/-- `np.log10`. -/
def log10 (x : F) : F := FTrig.ln x / FTrig.ln (lit 10)

/-- tools.py 142-145 and 147-149: the quadratic polynomial, of the logarithm of the mass. -/
def radiusFactor (rock l : F) : F :=
  (lit 0.0592 * rock + lit 0.0975) * (l * l) + (lit 0.2337 * rock + lit 0.4938) * l + lit 0.3102 * rock + lit 0.7932

/-- tools.py 131-152 `mass_radius_relation`: the radius in units of the radius of the Earth, of a mass in units of the mass of
the Earth ("factor") or of the Sun ("AU"). -/
def massRadiusRelation (mass : F) (type : String) (rock : F) : Option F :=
  if type = "factor" then some (radiusFactor rock (log10 mass))
  else if type = "AU" then some (radiusFactor rock (log10 mass + log10 Constants.Py.m2Earth))
  else none

/-- tools.py 1089-1107 `calculate_spin`. -/
def spinVector (angularFrequency inclination obliquity node : F) : Axes F :=
  ⟨angularFrequency * FTrig.sin (obliquity + inclination) * FTrig.sin node,
   -(lit 1) * angularFrequency * FTrig.sin (obliquity + inclination) * FTrig.cos node,
   angularFrequency * FTrig.cos (obliquity + inclination)⟩

/-- tools.py 1078-1086 `calculate_pseudo_synchronization_period`. -/
def pseudoSynchronizationPeriod [FPow F] (semiMajorAxis eccentricity starMass planetMass : F) : F :=
  let e2 := eccentricity * eccentricity
  let alpha := (lit 1 + lit 15 / lit 2 * e2 + lit 45 / lit 8 * (e2 * e2) + lit 5 / lit 16 * (e2 * e2 * e2))
    * lit 1 / (lit 1 + lit 3 * e2 + lit 3 / lit 8 * (e2 * e2)) * lit 1
    / FPow.powf (lit 1 - e2) (lit 1.5)
  let pseudoRot := alpha * FOps.sqrt (Constants.Py.gSi * Constants.Py.mSun * (starMass + planetMass))
  let angularFrequency := pseudoRot * FPow.powf (semiMajorAxis * Constants.Py.au) (-(lit 3) / lit 2)
    * Constants.Py.hour * lit 24
  twoPi / angularFrequency

/-- tools.py 62-77 `cosine_interpolation`. -/
def cosineInterpolation (target : F) (x y : List F) : Option F :=
  let (left, right) := Univ.Py.findIndices target x
  if left = right then y[left]?
  else
    match x[left]?, x[right]?, y[left]?, y[right]? with
    | some xl, some xr, some yl, some yr =>
      if eqb (xr - xl) (lit 0) then none
      else
        let percent := (target - xl) / (xr - xl)
        let percent := (lit 1 - FTrig.cos (percent * pi)) / lit 2
        some (yl * (lit 1 - percent) + yr * percent)
    | _, _, _, _ => none

end Posidonius.Tools.Py
