import Mathlib.Analysis.SpecialFunctions.Exp
import Mathlib.Analysis.SpecialFunctions.Trigonometric.Basic
import Mathlib.Analysis.Complex.Trigonometric
import Mathlib.Analysis.Complex.Norm

/-!
# Fourier series of the elliptic motion

The position on a Kepler ellipse in units of the semi-major axis, as a complex number with the real axis towards the
perihelion, is `(cos E - e) + i sqrt(1 - e²) sin E = (r/a) exp(i v)` with `E - e sin E = M`, where E, v and M are the
eccentric, the true and the mean anomaly.
-/

namespace Posidonius.Hansen

/-- r/a -/
noncomputable def radius (e bigE : ℝ) : ℝ := 1 - e * Real.cos bigE

/-- (r/a) exp(i v) -/
noncomputable def place (e bigE : ℝ) : ℂ :=
  ⟨Real.cos bigE - e, Real.sqrt (1 - e ^ 2) * Real.sin bigE⟩

/-- (a/r)^p exp(i m v) -/
noncomputable def term (p m : ℕ) (e bigE : ℝ) : ℂ :=
  (place e bigE / (radius e bigE : ℂ)) ^ m / (radius e bigE : ℂ) ^ p

/-- The fifteen functions `c` of the eccentricity are the coefficients of `exp(i (m + s(k - 7)) M)`, k = 0 .. 14, in the
Fourier series of `(a/r)^p exp(i m v)`, up to a term of order `e^8`: the error of the series is of this order,
uniformly in the anomaly. -/
def Expands (p m : ℕ) (s : ℤ) (c : ℝ → List ℝ) : Prop :=
  ∃ C : ℝ, ∀ e bigE : ℝ, 0 ≤ e → e ≤ 1 / 2 →
    ‖∑ k ∈ Finset.range 15, ((c e).getD k 0 : ℂ)
        * Complex.exp (Complex.I * ((m : ℤ) + s * ((k : ℤ) - 7) : ℤ) * (bigE - e * Real.sin bigE : ℝ))
      - term p m e bigE‖ ≤ C * e ^ 8

end Posidonius.Hansen
