import Verif.Spec.TidalForce
import Verif.Model.Universe

/-! The energy of tides.  Nothing here comes from the code. -/

namespace Posidonius.Univ
open Finset

/-- Energy stored in the tide which a mass `m` at `r` raises in a body of radius `R` with Love number `love`: half of
the energy of the mass in the field of the tide, the other half is needed to deform the body. -/
noncomputable def storedEnergy (G m R love : ℝ) (r : Axes ℝ) : ℝ := love / 2 * quadrupoleEnergy G m R r r

/-- The heat released in a body of radius `R`, dissipation factor `sigma` and rotation vector `spin` by the tide of a
mass `m` at `r` that moves with `v`: friction times the square of the velocity relative to the rotating body, counting
the radial part three times (Hut 1981). -/
noncomputable def tidalHeat (m R sigma : ℝ) (spin r v : Axes ℝ) : ℝ :=
  9 / 2 * m ^ 2 * R ^ 10 * sigma / Real.sqrt (r.dot r) ^ 8
    * ((v - spin.cross r).dot (v - spin.cross r) + 2 * (r.dot v / Real.sqrt (r.dot r)) ^ 2)

end Posidonius.Univ
