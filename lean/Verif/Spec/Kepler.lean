import Mathlib.Analysis.Calculus.Deriv.Inverse
import Mathlib.Analysis.Calculus.Deriv.Pow
import Mathlib.Analysis.Calculus.MeanValue
import Mathlib.Analysis.SpecialFunctions.Trigonometric.Deriv
import Mathlib.Analysis.SpecialFunctions.Trigonometric.DerivHyp
import Verif.Model.WHFast
import Verif.Lemmas.Vec
import Verif.Model.RealTrig

/-! The functions of Stiefel and Scheifele by their differential equations, and Kepler's equation for the
universal anomaly.  Nothing here comes from the code. -/

namespace Posidonius.WHFast

/-- `G` holds the functions G0 to G3 for `beta`: derivatives and values at zero. -/
structure GFunctions (beta : ℝ) (G : ℝ → Gs ℝ) : Prop where
  zero : G 0 = ⟨1, 0, 0, 0⟩
  d0 : ∀ x, HasDerivAt (fun y => (G y).g0) (-beta * (G x).g1) x
  d1 : ∀ x, HasDerivAt (fun y => (G y).g1) ((G x).g0) x
  d2 : ∀ x, HasDerivAt (fun y => (G y).g2) ((G x).g1) x
  d3 : ∀ x, HasDerivAt (fun y => (G y).g3) ((G x).g2) x

/-- Elliptic, hyperbolic and parabolic functions. -/
noncomputable def gFunctions (beta : ℝ) (x : ℝ) : Gs ℝ :=
  if 0 < beta then
    ⟨Real.cos (√beta * x), Real.sin (√beta * x) / √beta, (1 - Real.cos (√beta * x)) / beta,
      (x - Real.sin (√beta * x) / √beta) / beta⟩
  else if beta < 0 then
    ⟨Real.cosh (√(-beta) * x), Real.sinh (√(-beta) * x) / √(-beta), (1 - Real.cosh (√(-beta) * x)) / beta,
      (x - Real.sinh (√(-beta) * x) / √(-beta)) / beta⟩
  else ⟨1, x, x ^ 2 / 2, x ^ 3 / 6⟩

/-- Time since the start for the universal anomaly `x` (Kepler's equation), for a start at distance `r0`
with `eta0 = r.v` and `zeta0 = mu - beta r0`. -/
def universalTime (r0 eta0 zeta0 : ℝ) (G : ℝ → Gs ℝ) (x : ℝ) : ℝ :=
  r0 * x + eta0 * (G x).g2 + zeta0 * (G x).g3

/-- Distance for the universal anomaly `x`. -/
def universalDistance (r0 eta0 zeta0 : ℝ) (G : ℝ → Gs ℝ) (x : ℝ) : ℝ :=
  r0 + eta0 * (G x).g1 + zeta0 * (G x).g2

/-- A step of Newton's method for the equation `universalTime x = dt`. -/
noncomputable def newtonStep (r0 eta0 zeta0 : ℝ) (G : ℝ → Gs ℝ) (dt x : ℝ) : ℝ :=
  x - (universalTime r0 eta0 zeta0 G x - dt) / universalDistance r0 eta0 zeta0 G x

/-- A step of the method of Laguerre and Conway (degree 5) for the same equation. -/
noncomputable def laguerreStep (r0 eta0 zeta0 : ℝ) (G : ℝ → Gs ℝ) (dt x : ℝ) : ℝ :=
  x - 5 * (universalTime r0 eta0 zeta0 G x - dt)
    / (universalDistance r0 eta0 zeta0 G x
      + √|16 * universalDistance r0 eta0 zeta0 G x ^ 2
          - 20 * (universalTime r0 eta0 zeta0 G x - dt) * (eta0 * (G x).g0 + zeta0 * (G x).g1)|)

/-- `y` comes back after `n` steps, and the points on the way lie on both sides of `root` (or on it). -/
def CycleAround (step : ℝ → ℝ) (n : ℕ) (y root : ℝ) : Prop :=
  step^[n] y = y ∧ (∃ i < n, step^[i] y ≤ root) ∧ ∃ j < n, root ≤ step^[j] y

/-- Derivative of a vector by components. -/
def VecDeriv (p : ℝ → Axes ℝ) (d : Axes ℝ) (t : ℝ) : Prop :=
  HasDerivAt (fun s => (p s).x) d.x t ∧ HasDerivAt (fun s => (p s).y) d.y t ∧ HasDerivAt (fun s => (p s).z) d.z t

end Posidonius.WHFast
