import Verif.Model.RealScalar

/-! # Specification: piecewise linear functions given by a table -/

namespace Posidonius.Interp

/-- Strictly increasing abscissas. -/
def Increasing (x : List ℝ) : Prop := ∀ i j (hj : j < x.length) (hij : i < j), x[i] < x[j]

/-- `r` is the value at `t` of the piecewise linear function through the points `(x[i], y[i])`,
extended by constants on both sides. -/
structure PiecewiseLinear (x y : List ℝ) (h : y.length = x.length) (t r : ℝ) : Prop where
  below : ∀ h0 : 0 < x.length, t ≤ x[0] → r = y[0]
  above : ∀ h0 : 0 < x.length, x[x.length - 1] ≤ t → r = y[x.length - 1]
  between : ∀ i (hi : i + 1 < x.length), x[i] ≤ t → t ≤ x[i + 1] →
    r = y[i] + (y[i + 1] - y[i]) * ((t - x[i]) / (x[i + 1] - x[i]))

end Posidonius.Interp
