import Verif.Spec.WHFast
import Verif.Spec.Gravity

/-! Newton's equations for the bodies of a WHFast system, and the part of the forces left to the kick. -/

namespace Posidonius.WHFast
open Posidonius Gravity

/-- Acceleration at `x` by a list of bodies (a body at `x` itself contributes nothing). -/
noncomputable def pull (G : ℝ) (bodies : List (Body ℝ)) (x : Axes ℝ) : Axes ℝ :=
  (bodies.map fun q => newton G q.mass x q.position).sum

/-- The bodies moved a first order step in time under the gravity of all bodies. -/
noncomputable def Sys.euler (G dt : ℝ) (u : Sys ℝ) : Sys ℝ :=
  let move (p : Body ℝ) : Body ℝ :=
    p.moved (p.position + dt • p.velocity) (p.velocity + dt • pull G (u.star :: u.planets) p.position)
  { star := move u.star, planets := u.planets.map move }

def Body.accelerated (p : Body ℝ) (a : Axes ℝ) : Body ℝ := { p with acceleration := a }

/-- The accelerations of the kick.  Jacobi coordinates: all pairs except star and first planet; otherwise the
planets among each other. -/
noncomputable def kicked (c : Coordinates) (G : ℝ) (u : Sys ℝ) : Sys ℝ :=
  match c, u.planets with
  | .jacobi, [] => { star := u.star.accelerated 0, planets := [] }
  | .jacobi, p :: l =>
    { star := u.star.accelerated (pull G l u.star.position),
      planets := p.accelerated (pull G (p :: l) p.position)
        :: l.map fun q => q.accelerated (pull G (u.star :: p :: l) q.position) }
  | _, l => { star := u.star.accelerated 0, planets := l.map fun q => q.accelerated (pull G l q.position) }

/-- The mass that attracts planet `i` in its Kepler motion. -/
noncomputable def keplerMass (c : Coordinates) (u : Sys ℝ) (i : ℕ) : ℝ :=
  match c with
  | .democraticHeliocentric => u.star.mass
  | .whds => u.star.mass + totalMass ((u.planets.drop i).take 1)
  | .jacobi => u.star.mass + totalMass (u.planets.take (i + 1))

/-- Acceleration of Kepler motion about a mass `m` at the origin. -/
noncomputable def central (G m : ℝ) (q : Axes ℝ) : Axes ℝ := newton G m q 0

/-- The same with a softened distance. -/
noncomputable def softened (eps G m : ℝ) (q : Axes ℝ) : Axes ℝ :=
  -((G * m / Real.sqrt (q.dot q + eps) ^ 3) • q)

end Posidonius.WHFast
