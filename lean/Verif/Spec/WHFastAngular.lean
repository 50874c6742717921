import Verif.Spec.WHFast

/-! Angular momentum of the bodies and of the alternative coordinates. -/

namespace Posidonius.WHFast
open Posidonius

/-- Mass weighted sum of vector products: the angular momentum for positions and velocities, the torque for
positions and accelerations. -/
noncomputable def Sys.moment (u : Sys ℝ) (f g : Body ℝ → Axes ℝ) : Axes ℝ :=
  u.star.mass • (f u.star).cross (g u.star) + (u.planets.map fun p => p.mass • (f p).cross (g p)).sum

/-- The mass that goes with the coordinates of a planet of mass `m`; `eta` is the mass of the star, for Jacobi
coordinates also of the planets before. -/
noncomputable def reducedMass : Coordinates → ℝ → ℝ → ℝ
  | .democraticHeliocentric, _, m => m
  | _, eta, m => eta * m / (eta + m)

/-- The value of `eta` for the next planet. -/
noncomputable def nextMass : Coordinates → ℝ → ℝ → ℝ
  | .jacobi, eta, m => eta + m
  | _, eta, _ => eta

/-- Angular momentum of the planets in alternative coordinates. -/
noncomputable def orbital (c : Coordinates) : ℝ → List (Alt ℝ) → Axes ℝ
  | _, [] => 0
  | eta, a :: l => reducedMass c eta a.mass • a.position.cross a.velocity + orbital c (nextMass c eta a.mass) l

/-- Angular momentum of alternative coordinates: centre of mass and planets. -/
noncomputable def AltSys.angular (c : Coordinates) (m0 : ℝ) (a : AltSys ℝ) : Axes ℝ :=
  a.star.mass • a.star.position.cross a.star.velocity + orbital c m0 a.planets

/-- The point about which the kick acts. -/
noncomputable def pivot (c : Coordinates) (u : Sys ℝ) : Axes ℝ :=
  match c with
  | .jacobi => u.mass⁻¹ • u.weighted Body.position
  | _ => u.star.position

end Posidonius.WHFast
