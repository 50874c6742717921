import Verif.Spec.Kepler
import Verif.Model.WHFastIterate

/-! A step of WHFast with any solver of the two-body problem in place of the one of the code, and the reversal of all
velocities. -/

namespace Posidonius.WHFast
open Posidonius

/-- A solver of the two-body problem: attracting mass, time, position and velocity to position and velocity. -/
abbrev Solver := ℝ → ℝ → Axes ℝ → Axes ℝ → Option (Axes ℝ × Axes ℝ)

/-- The mass that attracts a planet: only the star, the star and the planet, or also all planets before. -/
def attracting : Coordinates → ℝ → Alt ℝ → ℝ
  | .democraticHeliocentric, running, _ => running
  | _, running, a => running + a.massG

/-- What the next planet finds. -/
def carried : Coordinates → ℝ → Alt ℝ → ℝ
  | .jacobi, running, a => running + a.massG
  | _, running, _ => running

/-- Kepler motion of the planets in alternative coordinates. -/
inductive PlanetsMove (K : Solver) (c : Coordinates) (t : ℝ) : ℝ → List (Alt ℝ) → List (Alt ℝ) → Prop
  | nil {running} : PlanetsMove K c t running [] []
  | cons {running} {a b : Alt ℝ} {l m : List (Alt ℝ)} :
      b.mass = a.mass → b.massG = a.massG →
      K (attracting c running a) t a.position a.velocity = some (b.position, b.velocity) →
      PlanetsMove K c t (carried c running a) l m → PlanetsMove K c t running (a :: l) (b :: m)

/-- Kepler motion of the planets and uniform motion of the centre of mass. -/
def KeplerMove (K : Solver) (c : Coordinates) (t : ℝ) (u : Sys ℝ) (a b : AltSys ℝ) : Prop :=
  b.star.mass = a.star.mass ∧ b.star.velocity = a.star.velocity
  ∧ b.star.position = a.star.position + t • a.star.velocity ∧ PlanetsMove K c t u.star.massG a.planets b.planets

/-- A step of WHFast with the solver `K`: Kepler motion, jump, kick, jump and Kepler motion. -/
def StepBy (K : Solver) (c : Coordinates) (g dt half : ℝ) (gravity : Sys ℝ → Option (Sys ℝ)) (u u' : Sys ℝ) : Prop :=
  ∃ (a1 a5 : AltSys ℝ) (u2 : Sys ℝ),
    KeplerMove K c half u (toAlternative c u) a1
    ∧ gravity (fromAlternative c (jumpStep c half u a1) u) = some u2
    ∧ KeplerMove K c half u2 (jumpStep c half u2 (interactionStep c g dt u2 (jumpStep c half u a1))) a5
    ∧ u' = fromAlternative c a5 u2

/-- All velocities reversed. -/
noncomputable def Sys.reversed (u : Sys ℝ) : Sys ℝ :=
  let turn (p : Body ℝ) : Body ℝ := { p with velocity := -p.velocity }
  { star := turn u.star, planets := u.planets.map turn }

/-- Turning the velocity round at the end leads back to the start. -/
def Solver.Reversible (K : Solver) : Prop :=
  ∀ m t r v r' v', K m t r v = some (r', v') → K m t r' (-v') = some (r, -v)

/-- Masses and positions of all bodies. -/
def Sys.places (u : Sys ℝ) : List (ℝ × ℝ × Axes ℝ) := u.bodies.map fun p => (p.mass, p.massG, p.position)

/-- Masses, positions and velocities of all bodies. -/
def Sys.motions (u : Sys ℝ) : List (ℝ × ℝ × Axes ℝ × Axes ℝ) :=
  u.bodies.map fun p => (p.mass, p.massG, p.position, p.velocity)

/-- Gravity computes accelerations of `N` bodies that depend on masses and positions only. -/
structure ByPositions (N : ℕ) (gravity : Sys ℝ → Option (Sys ℝ)) : Prop where
  keeps : ∀ v w, gravity v = some w → w.motions = v.motions
  same : ∀ v v' w, v.bodies.length = N → v'.places = v.places → gravity v = some w →
    ∃ w', gravity v' = some w' ∧ w'.bodies.map Body.acceleration = w.bodies.map Body.acceleration

end Posidonius.WHFast
