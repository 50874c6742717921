import Verif.Spec.WHFastReverse
import Verif.Spec.WHFastSplit

/-! Families of systems, their derivatives and the symplectic form. -/

namespace Posidonius.WHFast
open Posidonius Filter Topology

/-- After a time `t` the body that started at `r` with velocity `v`, attracted by a centre `m` at the origin, is at `r'` with
velocity `v'` and has not hit the centre. -/
def Reaches (m t : ℝ) (r v r' v' : Axes ℝ) : Prop :=
  ∃ p w : ℝ → Axes ℝ, p 0 = r ∧ w 0 = v ∧ p t = r' ∧ w t = v'
    ∧ ∀ s ∈ Set.Icc 0 t, p s ≠ 0 ∧ VecDeriv p (w s) s ∧ VecDeriv w ((-m / √((p s).dot (p s)) ^ 3) • p s) s

/-- Every answer of the solver is on the motion. -/
def Solver.Exact (K : Solver) : Prop := ∀ m t r v r' v', 0 ≤ t → K m t r v = some (r', v') → Reaches m t r v r' v'

open Classical in
/-- A solver whose answers are dropped if they are not on the motion. -/
noncomputable def Solver.exactly (K : Solver) : Solver := fun m t r v =>
  match K m t r v with
  | none => none
  | some (r', v') => if Reaches m t r v r' v' then some (r', v') else none

/-- For two families of starts through the same start the answers have derivatives, and the symplectic form of the two
derivatives is that of the starts. -/
def Solver.Symplectic (K : Solver) : Prop :=
  ∀ (m t : ℝ) (r v y z r' v' y' z' : ℝ → Axes ℝ) (a b c d : Axes ℝ), 0 ≤ t →
    (∀ᶠ e in 𝓝 0, K m t (r e) (v e) = some (r' e, v' e)) → (∀ᶠ e in 𝓝 0, K m t (y e) (z e) = some (y' e, z' e)) →
    r 0 = y 0 → v 0 = z 0 → VecDeriv r a 0 → VecDeriv v b 0 → VecDeriv y c 0 → VecDeriv z d 0 →
    ∃ a' b' c' d', VecDeriv r' a' 0 ∧ VecDeriv v' b' 0 ∧ VecDeriv y' c' 0 ∧ VecDeriv z' d' 0
      ∧ a'.dot d' - c'.dot b' = a.dot d - c.dot b

def Sys.massAt (u : Sys ℝ) (i : ℕ) : ℝ := (u.bodies[i]?.map Body.mass).getD 0

noncomputable def Sys.placeAt (u : Sys ℝ) (i : ℕ) : Axes ℝ := (u.bodies[i]?.map Body.position).getD 0

noncomputable def Sys.motionAt (u : Sys ℝ) (i : ℕ) : Axes ℝ := (u.bodies[i]?.map Body.velocity).getD 0

/-- Systems with the same masses whose positions and velocities change with rates `x` and `v`. -/
structure Varies (u : ℝ → Sys ℝ) (x v : ℕ → Axes ℝ) : Prop where
  masses : ∀ᶠ e in 𝓝 0, (u e).bodies.map (fun p => (p.mass, p.massG)) = (u 0).bodies.map fun p => (p.mass, p.massG)
  position : ∀ i, VecDeriv (fun e => (u e).placeAt i) (x i) 0
  velocity : ∀ i, VecDeriv (fun e => (u e).motionAt i) (v i) 0

/-- The symplectic form of the changes of positions and velocities `x`, `v` and `y`, `z`. -/
noncomputable def Sys.symplectic (u : Sys ℝ) (x v y z : ℕ → Axes ℝ) : ℝ :=
  ∑ i ∈ Finset.range u.bodies.length, u.massAt i * ((x i).dot (z i) - (y i).dot (v i))

open Classical in
/-- The kick, unless planets have collided (in Jacobi coordinates, unless bodies have collided). -/
noncomputable def apartKick (c : Coordinates) (G : ℝ) (v : Sys ℝ) : Option (Sys ℝ) :=
  if ((match c with | .jacobi => v.bodies | _ => v.planets).map Body.position).Nodup then some (kicked c G v) else none

end Posidonius.WHFast
