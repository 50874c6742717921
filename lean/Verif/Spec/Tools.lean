import Verif.Lemmas.Vec
import Mathlib.Analysis.SpecialFunctions.Trigonometric.Basic

/-! # Textbook two-body geometry (independent of the code) -/

namespace Posidonius.Kepler

/-- Rotation about the z axis. -/
noncomputable def rotZ (t : ℝ) (v : Axes ℝ) : Axes ℝ :=
  ⟨Real.cos t * v.x - Real.sin t * v.y, Real.sin t * v.x + Real.cos t * v.y, v.z⟩

/-- Rotation about the x axis. -/
noncomputable def rotX (t : ℝ) (v : Axes ℝ) : Axes ℝ :=
  ⟨v.x, Real.cos t * v.y - Real.sin t * v.z, Real.sin t * v.y + Real.cos t * v.z⟩

/-- Orientation of an orbit with inclination `i`, argument of perihelion `g` and node `n`. -/
noncomputable def orient (i g n : ℝ) (v : Axes ℝ) : Axes ℝ := rotZ n (rotX i (rotZ g v))

/-- Direction of the perihelion. -/
noncomputable def perihelionDirection (i g n : ℝ) : Axes ℝ := orient i g n ⟨1, 0, 0⟩
/-- Direction of motion at the perihelion. -/
noncomputable def transverseDirection (i g n : ℝ) : Axes ℝ := orient i g n ⟨0, 1, 0⟩
/-- Normal of the orbit. -/
noncomputable def normal (i g n : ℝ) : Axes ℝ := orient i g n ⟨0, 0, 1⟩

/-- Length. -/
noncomputable def len (a : Axes ℝ) : ℝ := Real.sqrt (a.dot a)

/-- The Laplace-Runge-Lenz (eccentricity) vector. -/
noncomputable def lrl (gm : ℝ) (r v : Axes ℝ) : Axes ℝ :=
  gm⁻¹ • v.cross (r.cross v) - (len r)⁻¹ • r

/-- `(r, v)` moves on the conic with perihelion distance `q`, eccentricity `e` and the given orientation:
the eccentricity vector has length `e` and points to the perihelion, and the angular momentum per mass is
`√(gm q (1+e))` along the normal. -/
structure OnOrbit (gm q e i g n : ℝ) (r v : Axes ℝ) : Prop where
  lrl_eq : lrl gm r v = e • perihelionDirection i g n
  momentum : r.cross v = Real.sqrt (gm * (q * (1 + e))) • normal i g n

/-- Kepler's equation for an ellipse, up to whole turns. -/
def ellipseEquation (e m bigE : ℝ) : Prop := ∃ k : ℤ, bigE - e * Real.sin bigE = m + k * (2 * Real.pi)
/-- Barker's equation. -/
def parabolaEquation (m d : ℝ) : Prop := d + d ^ 3 / 3 = m
/-- Kepler's equation for a hyperbola. -/
def hyperbolaEquation (e m f : ℝ) : Prop := e * Real.sinh f - f = m

/-- Position and velocity on an ellipse at eccentric anomaly `bigE`. -/
noncomputable def ellipsePosition (a e i g n bigE : ℝ) : Axes ℝ :=
  (a * (Real.cos bigE - e)) • perihelionDirection i g n +
    (a * Real.sqrt (1 - e ^ 2) * Real.sin bigE) • transverseDirection i g n
noncomputable def ellipseVelocity (gm a e i g n bigE : ℝ) : Axes ℝ :=
  (Real.sqrt (gm / a) / (1 - e * Real.cos bigE)) •
    ((-Real.sin bigE) • perihelionDirection i g n +
      (Real.sqrt (1 - e ^ 2) * Real.cos bigE) • transverseDirection i g n)

end Posidonius.Kepler
