import Verif.Spec.WHFastReverse

/-! Solvers of the two-body problem that hit the motion up to a tolerance. -/

namespace Posidonius.WHFast
open Posidonius Set

/-- `r'` and `v'` are within `tolerance` of where a body is after time `t` that starts at `r` with velocity `v` and moves about
a centre of attraction `m` at the origin. -/
def OnOrbit (tolerance m t : ℝ) (r v r' v' : Axes ℝ) : Prop :=
  ∃ p w : ℝ → Axes ℝ, p 0 = r ∧ w 0 = v
    ∧ (∀ s ∈ Icc 0 t, VecDeriv p (w s) s ∧ VecDeriv w ((-m / √((p s).dot (p s)) ^ 3) • p s) s)
    ∧ √((r' - p t).dot (r' - p t)) ≤ tolerance ∧ √((v' - w t).dot (v' - w t)) ≤ tolerance

/-- Every answer of the solver is within `tolerance` of the motion. -/
def Solver.Accurate (K : Solver) (tolerance : ℝ) : Prop :=
  ∀ m t r v r' v', 0 < t → K m t r v = some (r', v') → OnOrbit tolerance m t r v r' v'

open Classical in
/-- A solver whose answers are dropped if they are not within `tolerance` of the motion. -/
noncomputable def Solver.within (K : Solver) (tolerance : ℝ) : Solver := fun m t r v =>
  match K m t r v with
  | none => none
  | some (r', v') => if OnOrbit tolerance m t r v r' v' then some (r', v') else none

end Posidonius.WHFast
