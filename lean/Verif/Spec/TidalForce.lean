import Verif.Spec.Kepler
import Verif.Model.Evolver

/-! The tidal force of the constant time lag model from its physical definition (Mignard 1979, Hut 1981,
Bolmont et al. 2015) and the frequency averaged dynamical tide (Bolmont & Mathis 2016).  Nothing here comes
from the code. -/

namespace Posidonius.Univ
open WHFast (VecDeriv)

/-- Energy of a mass `m` at `r` in the field of the quadrupole which the same mass at `s` would raise in a
body of radius `R` with Love number one: `-G m² R⁵ P₂(cos (r, s)) / (r³ s³)`. -/
noncomputable def quadrupoleEnergy (G m R : ℝ) (r s : Axes ℝ) : ℝ :=
  -(G * m ^ 2 * R ^ 5) * (3 * r.dot s ^ 2 - r.dot r * s.dot s)
    / (2 * Real.sqrt (r.dot r) ^ 5 * Real.sqrt (s.dot s) ^ 5)

/-- `force` is the force at `r` of the energy `E`: minus its gradient. -/
def IsForce (E : Axes ℝ → ℝ) (r force : Axes ℝ) : Prop :=
  ∀ e : Axes ℝ, HasDerivAt (fun x : ℝ => E (r + x • e)) (-(force.dot e)) 0

/-- The force on a mass `m` at `r`, moving with `v`, by the tide it raises in a body at the origin with
radius `R`, Love number `love`, dissipation factor `sigma` and rotation vector `spin`.  The bulge lags: it
is the one of the place `r + τ (spin × r - v)`, and the force is taken to first order in the lag `τ`, with
`love τ = 3 R⁵ sigma / (2 G)`. -/
def WeakFriction (G m R love sigma : ℝ) (spin r v force : Axes ℝ) : Prop :=
  ∃ (Q : ℝ → Axes ℝ) (D : Axes ℝ),
    (∀ τ, IsForce (fun x => quadrupoleEnergy G m R x (r + τ • (spin.cross r - v))) r (Q τ))
    ∧ VecDeriv Q D 0
    ∧ force = love • Q 0 + (3 * R ^ 5 * sigma / (2 * G)) • D

/-- The evolution models whose tables contain the dissipation of the dynamical tide. -/
def dynamicalTideModels : List Evolution.EvolutionType :=
  [.bolmontMathis2016, .galletBolmont2017, .leconteChabrier2013 true]

/-- The dissipation factor of a body for a companion of mean motion `n`: the equilibrium one, to which the
dynamical tide adds `2 G lag / (3 R⁵ ω)` if the tidal frequency `ω = |spin - n|` (half of it, to be exact)
is below the rotation rate, `ω` being kept above `smoothing`. -/
noncomputable def dissipation (G smoothing R lag scale sigma spin n : ℝ) : ℝ :=
  if |spin - n| < spin then scale * (sigma + 2 * G * lag / (3 * R ^ 5 * max |spin - n| smoothing))
  else scale * sigma

/-- `n` is the mean motion of the bound orbit through `r` with velocity `v`: Kepler's third law for the
semi-major axis given by the energy. -/
def IsMeanMotion (gm : ℝ) (r v : Axes ℝ) (n : ℝ) : Prop :=
  0 < n ∧ ∃ a, 0 < a ∧ v.dot v / 2 - gm / Real.sqrt (r.dot r) = -(gm / (2 * a)) ∧ n ^ 2 * a ^ 3 = gm

end Posidonius.Univ
