import Verif.Model.Constants
import Verif.Model.RealScalar
import Verif.Model.RealTrig
import Mathlib.Analysis.Real.Pi.Bounds
import Mathlib.Tactic.NormNum
import Mathlib.Tactic.Positivity
import Mathlib.Tactic.FieldSimp
import Mathlib.Tactic.Linarith

/-! # C132: the physical constants -/

namespace Posidonius.Constants

/-- A quantity of dimension kg^a m^b s^c measured in solar masses (of 1.9818e30 kg), astronomical units and days. -/
noncomputable def measured (a b c : ℤ) (x : ℝ) : ℝ :=
  x / ((19818 * 10 ^ 26) ^ a * 149597870700 ^ b * 86400 ^ c)

/-- **C132** Every constant of the library is the quantity in SI units that it stands for, measured in the units of the
simulation: gravitational constant, square of the speed of light, radius of the Sun, smoothing frequency of 1e-5 per second,
square of the critical rotation of the Sun, Boltzmann constant, mass of the hydrogen atom, mass and radius of the Earth. -/
theorem C132_units :
    (library (F := ℝ)).g = measured (-1) 3 (-2) (6.67428 / 10 ^ 11)
    ∧ (library (F := ℝ)).c2 = measured 0 1 (-1) 299792458 ^ 2
    ∧ (library (F := ℝ)).rSun = measured 0 1 0 695700000
    ∧ (library (F := ℝ)).smoothing = measured 0 0 (-1) (1 / 100000)
    ∧ (library (F := ℝ)).sunDynFreq2 = measured 0 0 (-2) (6.67428 / 10 ^ 11 * (19818 * 10 ^ 26) / 695700000 ^ 3)
    ∧ (library (F := ℝ)).boltzmann = measured 1 2 (-2) (1.380649 / 10 ^ 23)
    ∧ (library (F := ℝ)).massHydrogen = measured 1 0 0 (1.672162841 / 10 ^ 27)
    ∧ (mEarth : ℝ) = measured 1 0 0 (19818 * 10 ^ 26 / 332946.050895)
    ∧ (rEarth : ℝ) = measured 0 1 0 6378100
    ∧ (m2Au : ℝ) = measured 0 1 0 1 := by
  simp only [library, measured, k2, speedOfLight2, speedOfLight, rSun, smoothing, sunDynFreq2, boltzmann, massHydrogenAtom,
    mEarth, rEarth, m2Au, gSi, au, mSun, day, hour, boltzmannSi, massHydrogenAtomSi, m2Earth, lit_real]
  norm_num

/-- **C132** The front end has the constants of the library. -/
theorem C132_same :
    (Py.hour : ℝ) = hour ∧ (Py.day : ℝ) = day ∧ (Py.mSun : ℝ) = mSun ∧ (Py.m2Earth : ℝ) = m2Earth
    ∧ (Py.mEarth : ℝ) = mEarth ∧ (Py.gSi : ℝ) = gSi ∧ (Py.au : ℝ) = au ∧ (Py.m2Au : ℝ) = m2Au ∧ (Py.rSun : ℝ) = rSun
    ∧ (Py.rEarth : ℝ) = rEarth ∧ (Py.k2 : ℝ) = k2 ∧ (Py.boltzmann : ℝ) = boltzmann
    ∧ (Py.massHydrogenAtom : ℝ) = massHydrogenAtom ∧ (Py.year : ℝ) = 365.25 * 24 * 3600 := by
  refine ⟨rfl, rfl, rfl, rfl, rfl, rfl, rfl, rfl, rfl, rfl, rfl, rfl, rfl, ?_⟩
  simp only [Py.year, Py.day, Py.hour, lit_real]
  norm_num

/-- **C132**, violated: the product of the gravitational constant and the mass of the Sun is too small by a third of a
percent: the IAU 2009 system has 1.32712442099e20 m^3/s^2 (and 1.9884e30 kg). -/
theorem C132_violated_sun :
    1.0033 * ((gSi : ℝ) * mSun) < 132712442099 * 10 ^ 9 ∧ 132712442099 * 10 ^ 9 < 1.0034 * ((gSi : ℝ) * mSun)
    ∧ (mSun : ℝ) + 66 * 10 ^ 26 = 19884 * 10 ^ 26 := by
  simp only [gSi, mSun, lit_real]
  norm_num

/-- The period of the relative orbit of two bodies: semi-major axis in m, sum of the masses times the gravitational constant
in m^3/s^2; the period in seconds. -/
noncomputable def keplerPeriod (a gm : ℝ) : ℝ := 2 * Real.pi * Real.sqrt (a ^ 3 / gm)

theorem sqrt_ratio {a g h c : ℝ} (ha : 0 < a) (hg : 0 < g) (hh : 0 < h) (hc : 0 < c) (hlt : c ^ 2 * g < h) :
    c * Real.sqrt (a ^ 3 / h) < Real.sqrt (a ^ 3 / g) := by
  apply Real.lt_sqrt_of_sq_lt
  rw [mul_pow, Real.sq_sqrt (by positivity), ← mul_div_assoc, div_lt_div_iff₀ hh hg]
  nlinarith [pow_pos ha 3]

theorem sqrt_ratio' {a g h c : ℝ} (ha : 0 < a) (hg : 0 < g) (hh : 0 < h) (hc : 0 < c) (hlt : h < c ^ 2 * g) :
    Real.sqrt (a ^ 3 / g) < c * Real.sqrt (a ^ 3 / h) := by
  rw [Real.sqrt_lt' (by positivity), mul_pow, Real.sq_sqrt (by positivity), ← mul_div_assoc, div_lt_div_iff₀ hg hh]
  nlinarith [pow_pos ha 3]

theorem measured_period (a m : ℝ) (ha : 0 < a) (hm : 0 < m) :
    2 * Real.pi * Real.sqrt (a ^ 3 / ((k2 : ℝ) * m)) * 86400 = keplerPeriod (a * 149597870700) (gSi * mSun * m) := by
  have e : (a * 149597870700) ^ 3 / ((gSi : ℝ) * mSun * m) = a ^ 3 / ((k2 : ℝ) * m) * 86400 ^ 2 := by
    have : (k2 : ℝ) = gSi * mSun / 149597870700 ^ 3 * 86400 ^ 2 := by
      simp only [k2, gSi, mSun, au, day, hour, lit_real]
      norm_num
    have hk : (gSi : ℝ) * mSun ≠ 0 := by
      simp only [gSi, mSun, lit_real]
      norm_num
    rw [this]
    field_simp
  rw [keplerPeriod, e, Real.sqrt_mul (by
    have : (0:ℝ) < k2 := by
      simp only [k2, gSi, mSun, au, day, hour, lit_real]
      norm_num
    positivity), Real.sqrt_sq (by norm_num)]
  ring

/-- **C132** The periods of orbits in the simulation, which are in days, are those of Kepler's third law for the masses in kg
and the distances in m. -/
theorem C132_period (a m : ℝ) (ha : 0 < a) (hm : 0 < m) :
    2 * Real.pi * Real.sqrt (a ^ 3 / ((library (F := ℝ)).g * m)) * 86400
      = keplerPeriod (a * 149597870700) (6.67428 / 10 ^ 11 * (m * (19818 * 10 ^ 26))) := by
  have := measured_period a m ha hm
  simp only [library]
  rw [this]
  congr 1
  simp only [gSi, mSun, lit_real]
  push_cast
  ring

/-- **C132**, violated: every orbit of the simulation takes longer than that of the same size around the same number of solar
masses, by one part in 600. -/
theorem C132_violated_periods (a m : ℝ) (ha : 0 < a) (hm : 0 < m) :
    1.00166 * keplerPeriod (a * 149597870700) (132712442099 * 10 ^ 9 * m)
        < 2 * Real.pi * Real.sqrt (a ^ 3 / ((library (F := ℝ)).g * m)) * 86400
    ∧ 2 * Real.pi * Real.sqrt (a ^ 3 / ((library (F := ℝ)).g * m)) * 86400
        < 1.00167 * keplerPeriod (a * 149597870700) (132712442099 * 10 ^ 9 * m) := by
  have hg : (0:ℝ) < gSi * mSun := by
    simp only [gSi, mSun, lit_real]
    norm_num
  have hp := Real.pi_pos
  have h : (library (F := ℝ)).g = k2 := rfl
  rw [h, measured_period a m ha hm, keplerPeriod, keplerPeriod]
  constructor
  · have := sqrt_ratio (a := a * 149597870700) (g := gSi * mSun * m) (h := 132712442099 * 10 ^ 9 * m) (c := 1.00166)
      (by positivity) (by positivity) (by positivity) (by norm_num) (by
        rw [← mul_assoc]
        refine mul_lt_mul_of_pos_right ?_ hm
        simp only [gSi, mSun, lit_real]
        norm_num)
    nlinarith
  · have := sqrt_ratio' (a := a * 149597870700) (g := gSi * mSun * m) (h := 132712442099 * 10 ^ 9 * m) (c := 1.00167)
      (by positivity) (by positivity) (by positivity) (by norm_num) (by
        rw [← mul_assoc]
        refine mul_lt_mul_of_pos_right ?_ hm
        simp only [gSi, mSun, lit_real]
        norm_num)
    nlinarith

/-- **C132**, violated: a body of negligible mass at one astronomical unit from one solar mass takes more than 365.86 days,
whereas a year (for the constant of Gauss) has 365.2568983 days. -/
theorem C132_violated_year :
    365.86 < 2 * Real.pi * Real.sqrt (1 ^ 3 / ((library (F := ℝ)).g * 1))
    ∧ 2 * Real.pi * Real.sqrt (1 ^ 3 / ((library (F := ℝ)).g * 1)) < 365.87 := by
  have e : (library (F := ℝ)).g = 6.67428 / 10 ^ 11 * (19818 * 10 ^ 26) / 149597870700 ^ 3 * 86400 ^ 2 := by
    simp only [library, k2, gSi, mSun, au, day, hour, lit_real]
    norm_num
  have h1 : (58.2285 : ℝ) < Real.sqrt (1 ^ 3 / ((library (F := ℝ)).g * 1)) := by
    rw [e]
    apply Real.lt_sqrt_of_sq_lt
    norm_num
  have h2 : Real.sqrt (1 ^ 3 / ((library (F := ℝ)).g * 1)) < 58.23 := by
    rw [e, Real.sqrt_lt' (by norm_num)]
    norm_num
  have p1 := Real.pi_gt_d6
  have p2 := Real.pi_lt_d6
  constructor <;> nlinarith

/-- **C132**, violated: the mass of the hydrogen atom is not that of CODATA (1.6735328e-27 kg), nor that of the proton
(1.672621e-27 kg): it is too small by more than eight or two parts in ten thousand. -/
theorem C132_violated_hydrogen :
    1.0008 * (massHydrogenAtomSi : ℝ) < 1.6735328 / 10 ^ 27 ∧ 1.0002 * (massHydrogenAtomSi : ℝ) < 1.672621 / 10 ^ 27 := by
  simp only [massHydrogenAtomSi, lit_real]
  norm_num

example : 1.00166 * keplerPeriod (0.01 * 149597870700) (132712442099 * 10 ^ 9 * 0.08)
    < 2 * Real.pi * Real.sqrt (0.01 ^ 3 / ((library (F := ℝ)).g * 0.08)) * 86400 :=
  (C132_violated_periods 0.01 0.08 (by norm_num) (by norm_num)).1

end Posidonius.Constants
