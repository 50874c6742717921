import Verif.Model.Ias15
import Verif.Lemmas.Vec
import Mathlib.MeasureTheory.Integral.IntervalIntegral.FundThmCalculus
import Mathlib.Analysis.Calculus.Deriv.Pow
import Mathlib.Analysis.Calculus.Deriv.Mul
import Mathlib.Analysis.Calculus.Deriv.Add

/-! # Specification of IAS15: the acceleration as a polynomial of the fraction of the step -/

namespace Posidonius.Ias15

/-- `a0 + b0 τ + b1 τ² + ... + b6 τ⁷`. -/
def poly (a0 : ℝ) (b : Seven ℝ) (τ : ℝ) : ℝ :=
  a0 + b.c0 * τ + b.c1 * τ ^ 2 + b.c2 * τ ^ 3 + b.c3 * τ ^ 4 + b.c4 * τ ^ 5 + b.c5 * τ ^ 6 + b.c6 * τ ^ 7

/-- The acceleration (or torque) a time `t` after the beginning of a step of length `dt`. -/
noncomputable def Series.at (s : Series ℝ) (dt t : ℝ) : ℝ := poly s.a0 s.b (t / dt)

end Posidonius.Ias15
