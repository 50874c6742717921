import Verif.Model.Particle
import Verif.Model.Analysis

/-!
# The physical constants

/repo/src/constants.rs 30-74 and /repo/posidonius/constants.py 12-55.  `AU*AU*AU` and `np.power(AU,3)` are written as the
same product.
-/

namespace Posidonius.Constants

variable {F : Type} [Add F] [Sub F] [Mul F] [Div F] [Neg F] [FOps F]

/-! ## constants.rs -/

/-- constants.rs 34. -/
def hour : F := lit 3600
/-- constants.rs 35. -/
def day : F := lit 24 * hour
/-- constants.rs 40, in kg. -/
def mSun : F := lit (19818 * 10 ^ 26)
/-- constants.rs 41. -/
def m2Earth : F := lit 332946.050895
/-- constants.rs 43, in solar masses. -/
def mEarth : F := lit 1 / m2Earth
/-- constants.rs 44, in SI units. -/
def gSi : F := lit (667428 / 10 ^ 16)
/-- constants.rs 45, in m. -/
def au : F := lit 149597870700
/-- constants.rs 46. -/
def m2Au : F := lit 1 / au
/-- constants.rs 47, in AU per day. -/
def speedOfLight : F := lit 299792458 / au * day
/-- constants.rs 48. -/
def speedOfLight2 : F := speedOfLight * speedOfLight
/-- constants.rs 52, in AU. -/
def rSun : F := lit 695700000 / au
/-- constants.rs 53, in AU. -/
def rEarth : F := lit 6378100 / au
/-- constants.rs 59-61 `G_MERCURY`, `G` and `K2`. -/
def k2 : F := gSi / (au * au * au) * mSun * (day * day)
/-- constants.rs 66. -/
def sunDynFreq2 : F := k2 / (rSun * rSun * rSun)
/-- constants.rs 67. -/
def smoothing : F := lit (1 / 10 ^ 5) * lit 86400
/-- constants.rs 71. -/
def boltzmannSi : F := lit (1380649 / 10 ^ 29)
/-- constants.rs 72. -/
def massHydrogenAtomSi : F := lit (1672162841 / 10 ^ 36)
/-- constants.rs 73. -/
def boltzmann : F := boltzmannSi / (mSun * au * au) * day * day
/-- constants.rs 74. -/
def massHydrogenAtom : F := massHydrogenAtomSi / mSun

/-- The constants of the compiled program. -/
def library : Univ.Consts F where
  g := k2
  c2 := speedOfLight2
  rSun := rSun
  smoothing := smoothing
  sunDynFreq2 := sunDynFreq2
  boltzmann := boltzmann
  massHydrogen := massHydrogenAtom

/-! ## constants.py -/

namespace Py

/-- constants.py 38. -/
def hour : F := lit 3600
/-- constants.py 39. -/
def day : F := lit 24 * hour
/-- constants.py 40. -/
def year : F := lit 365.25 * day
/-- constants.py 19. -/
def mSun : F := lit (19818 * 10 ^ 26)
/-- constants.py 20. -/
def m2Earth : F := lit 332946.050895
/-- constants.py 22. -/
def mEarth : F := lit 1 / m2Earth
/-- constants.py 23. -/
def gSi : F := lit (667428 / 10 ^ 16)
/-- constants.py 24. -/
def au : F := lit 149597870700
/-- constants.py 25. -/
def m2Au : F := lit 1 / au
/-- constants.py 29-30. -/
def rSun : F := lit 695700000 / au
/-- constants.py 31-32. -/
def rEarth : F := lit 6378100 / au
/-- constants.py 45-47. -/
def k2 : F := gSi / (au * au * au) * mSun * (day * day)
/-- constants.py 52. -/
def boltzmannSi : F := lit (1380649 / 10 ^ 29)
/-- constants.py 53. -/
def massHydrogenAtomSi : F := lit (1672162841 / 10 ^ 36)
/-- constants.py 54. -/
def boltzmann : F := boltzmannSi / (mSun * au * au) * day * day
/-- constants.py 55. -/
def massHydrogenAtom : F := massHydrogenAtomSi / mSun

/-- What the analysis uses. -/
def si : Analysis.Si F := ⟨gSi, mSun, au, day⟩

end Py

end Posidonius.Constants
