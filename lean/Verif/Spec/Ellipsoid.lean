import Verif.Lemmas.Vec
import Mathlib.Analysis.SpecialFunctions.Trigonometric.Basic

/-!
# The potential of a flattened body

MacCullagh's formula: the quadrupole part of the potential of a body with principal moments of inertia A, B, C at the
place p, in its principal axes, is `-G (A + B + C - 3 I) / (2 r³)`, where `I` is its moment of inertia about the line
to the place.
-/

namespace Posidonius.Ellipsoid

/-- MacCullagh's formula for the energy of a point mass. -/
noncomputable def macCullagh (g pointMass A B C : ℝ) (p : Axes ℝ) : ℝ :=
  -(g * pointMass) * (A + B + C - 3 * ((A * p.x ^ 2 + B * p.y ^ 2 + C * p.z ^ 2) / p.dot p)) / (2 * Real.sqrt (p.dot p) ^ 3)

/-- The energy of a point mass at `q` in the quadrupole field of a homogeneous ellipsoid of mass `m` and squared
semi-axes `a2`, `b2`, `c2`; the axis `c` is the z axis and the axis `a` is at the angle `angle` from the direction
of `r` in the plane. -/
noncomputable def energy (g pointMass m a2 b2 c2 angle : ℝ) (r q : Axes ℝ) : ℝ :=
  let d := Real.sqrt (r.x ^ 2 + r.y ^ 2)
  let u := (r.x * q.x + r.y * q.y) / d
  let v := (r.x * q.y - r.y * q.x) / d
  macCullagh g pointMass (m / 5 * (b2 + c2)) (m / 5 * (a2 + c2)) (m / 5 * (a2 + b2))
    ⟨Real.cos angle * u + Real.sin angle * v, Real.cos angle * v - Real.sin angle * u, q.z⟩

end Posidonius.Ellipsoid
