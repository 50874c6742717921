import Verif.Spec.Kepler
import Verif.Model.Scalar
import Mathlib.Analysis.SpecialFunctions.Trigonometric.Deriv

/-! What a disturbing acceleration does to a Kepler orbit in a revolution: notions that the code does not have. -/

namespace Posidonius.Univ
open WHFast (VecDeriv)

/-- The mean motion of an orbit with the semi-major axis `a`, `mu` being the gravitational parameter (Kepler's third law). -/
noncomputable def orbitRate (mu a : ℝ) : ℝ := Real.sqrt (mu / a ^ 3)

/-- `x` and `v` are position and velocity along a Kepler ellipse around the origin; `p` points to the pericentre and `q` is
perpendicular to it in the plane of the orbit.  The origin of time is a pericentre passage. -/
structure Ellipse (mu a e : ℝ) (p q : Axes ℝ) (x v : ℝ → Axes ℝ) : Prop where
  attracts : 0 < mu
  size : 0 < a
  round : 0 ≤ e
  closed : e < 1
  pp : p.dot p = 1
  qq : q.dot q = 1
  pq : p.dot q = 0
  place : ∃ E : ℝ → ℝ, (∀ t, E t - e * Real.sin (E t) = orbitRate mu a * t)
    ∧ ∀ t, x t = (a * (Real.cos (E t) - e)) • p + (a * Real.sqrt (1 - e ^ 2) * Real.sin (E t)) • q
  moves : ∀ t, VecDeriv x (v t) t

/-- A quantity that changes at the rate `rate` gains `g` in every interval of the length `T`. -/
def Gain (rate : ℝ → ℝ) (T g : ℝ) : Prop :=
  (∃ I : ℝ → ℝ, ∀ t, HasDerivAt I (rate t) t) ∧ ∀ I : ℝ → ℝ, (∀ t, HasDerivAt I (rate t) t) → ∀ t, I (t + T) - I t = g

/-- The vector that points to the pericentre and is as long as the eccentricity (Laplace, Runge and Lenz). -/
noncomputable def eccentricityVector (mu : ℝ) (x v : Axes ℝ) : Axes ℝ :=
  (1 / mu) • v.cross (x.cross v) - (1 / Real.sqrt (x.dot x)) • x

/-- The rate at which the acceleration `d`, in addition to that of the central body, changes the eccentricity vector. -/
noncomputable def eccentricityRate (mu : ℝ) (x v d : Axes ℝ) : Axes ℝ :=
  (1 / mu) • (d.cross (x.cross v) + v.cross (x.cross d))

/-! The functions of the eccentricity of Hut (1981), equation (11), and what he derives with them for the mean change of an
orbit by the tide in one of two bodies: `A` is 9/2 of the square of the mass of the other body times the tenth power of the
radius and the dissipation factor, `spin` the component of the angular velocity along the normal of the orbit. -/

noncomputable def hut1 (e : ℝ) : ℝ := 1 + 31 / 2 * e ^ 2 + 255 / 8 * e ^ 4 + 185 / 16 * e ^ 6 + 25 / 64 * e ^ 8
noncomputable def hut2 (e : ℝ) : ℝ := 1 + 15 / 2 * e ^ 2 + 45 / 8 * e ^ 4 + 5 / 16 * e ^ 6
noncomputable def hut3 (e : ℝ) : ℝ := 1 + 15 / 4 * e ^ 2 + 15 / 8 * e ^ 4 + 5 / 64 * e ^ 6
noncomputable def hut4 (e : ℝ) : ℝ := 1 + 3 / 2 * e ^ 2 + 1 / 8 * e ^ 4
noncomputable def hut5 (e : ℝ) : ℝ := 1 + 3 * e ^ 2 + 3 / 8 * e ^ 4

/-- The work of a tide on the orbit in a revolution. -/
noncomputable def orbitWork (mu a e A spin : ℝ) : ℝ :=
  -(2 * Real.pi * A / a ^ 6) * (orbitRate mu a * (hut1 e / Real.sqrt (1 - e ^ 2) ^ 15)
    - spin * (hut2 e / Real.sqrt (1 - e ^ 2) ^ 12))

/-- The angular momentum that a tide gives to the orbit in a revolution. -/
noncomputable def orbitTorque (mu a e A spin : ℝ) : ℝ :=
  -(2 * Real.pi * A / a ^ 6) * (hut2 e / Real.sqrt (1 - e ^ 2) ^ 12
    - spin / orbitRate mu a * (hut5 e / Real.sqrt (1 - e ^ 2) ^ 9))

/-- The change of the eccentricity in a revolution, for unit reduced mass. -/
noncomputable def orbitShape (mu a e A spin : ℝ) : ℝ :=
  -(2 * Real.pi * A / (mu * a ^ 5)) * e * (9 * orbitRate mu a * (hut3 e / Real.sqrt (1 - e ^ 2) ^ 13)
    - 11 / 2 * spin * (hut4 e / Real.sqrt (1 - e ^ 2) ^ 10))

end Posidonius.Univ
