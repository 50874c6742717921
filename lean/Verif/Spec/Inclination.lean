import Mathlib.Algebra.Polynomial.Derivative
import Mathlib.Analysis.SpecialFunctions.Trigonometric.Basic
import Mathlib.Analysis.Complex.Trigonometric
import Mathlib.Data.Complex.BigOperators

/-!
# Kaula's inclination functions

A body on a circle of inclination i, at the angle u from the node, has the latitude phi and the longitude lambda from
the node, with sin phi = sin i sin u and cos phi exp(i lambda) = cos u + i cos i sin u.
-/

namespace Posidonius.Inclination
open Polynomial

/-- The m-th derivative of the Legendre polynomial of degree l (formula of Rodrigues).  The associated Legendre
function is this times cos^m phi, as a function of the sine of the latitude. -/
noncomputable def legendre (l m : ℕ) (x : ℝ) : ℝ :=
  (derivative^[l + m] ((X ^ 2 - 1) ^ l : ℝ[X])).eval x / (2 ^ l * l.factorial)

/-- cos phi exp(i lambda) -/
noncomputable def place (i u : ℝ) : ℂ := ⟨Real.cos u, Real.cos i * Real.sin u⟩

/-- The numbers `f`, p = 0 .. l, are the functions F_lmp of Kaula at the inclination i: at all places
`P_lm(sin phi) exp(i m lambda)` is the sum of `f_p exp(i (l - 2p) u)`, times -i if l - m is odd. -/
def InclinesAt (l m : ℕ) (i : ℝ) (f : List ℝ) : Prop :=
  ∀ u : ℝ, (legendre l m (Real.sin i * Real.sin u) : ℂ) * place i u ^ m
    = (if Even (l - m) then 1 else -Complex.I)
      * ∑ p ∈ Finset.range (l + 1), (f.getD p 0 : ℂ) * Complex.exp (Complex.I * ((l : ℤ) - 2 * (p : ℤ) : ℤ) * u)

/-- The same at all inclinations. -/
def Inclines (l m : ℕ) (f : ℝ → List ℝ) : Prop := ∀ i : ℝ, InclinesAt l m i (f i)

end Posidonius.Inclination
