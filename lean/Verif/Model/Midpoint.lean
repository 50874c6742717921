import Verif.Model.Vec

/-!
# WHFast: implicit midpoint for velocity dependent forces

/repo/src/integrator/whfast.rs 321-466.  Of every particle only inertial velocity and angular momentum matter;
everything else the evaluation of the effects reads or changes (positions, spins, evolving quantities, ...) is a
hidden state of arbitrary type.  The warning (390-392) is left out.
-/

namespace Posidonius.WHFast

/-- Inertial velocity and angular momentum of a particle (or changes or errors of them). -/
structure Motion (F : Type) where
  velocity : Axes F
  angular : Axes F

/-- `inertial_additional_acceleration` and `dangular_momentum_dt` of a particle. -/
structure Rate (F : Type) where
  acceleration : Axes F
  torque : Axes F

/-- `inertial_to_heliocentric` and `calculate_additional_effects` (336-347): from the hidden state, the flag
`evolution` and the motion of the particles to their rates.  `none`: panic. -/
abbrev Evaluate (S F : Type) := S → Bool → List (Motion F) → Option (S × List (Rate F))

section
variable {F : Type} [Add F] [Sub F] [Mul F] [Div F] [Neg F] [FOps F]

/-- whfast.rs 349-371, the change of one particle: `dt * rate - error`; without spin the change stays zero. -/
def changeOf (dt : F) (spin : Bool) (r : Rate F) (error : Motion F) : Motion F :=
  { velocity := dt • r.acceleration - error.velocity,
    angular := if spin then dt • r.torque - error.angular else Axes.zero }

/-- whfast.rs 349-371, the final values of one particle. -/
def finalOf (spin : Bool) (orig change : Motion F) : Motion F :=
  { velocity := orig.velocity + change.velocity,
    angular := if spin then orig.angular + change.angular else orig.angular }

/-- whfast.rs 453-466 `average_particles_for_velocity_dependent_forces_integration`. -/
def averageOf (spin : Bool) (orig final : Motion F) : Motion F :=
  { velocity := (lit 0.5 : F) • (orig.velocity + final.velocity),
    angular := if spin then (lit 0.5 : F) • (orig.angular + final.angular) else orig.angular }

/-- constants.rs 23, 24: the square of 2.2204460492503131e-16. -/
def epsilon2 : F := lit 2.2204460492503131e-16 * lit 2.2204460492503131e-16

/-- Sum over the particles of the squared length. -/
def total2 (l : List (Axes F)) : F := l.foldl (fun s v => s + v.norm2) (lit 0)

/-- whfast.rs 424-451 `converged_velocity_dependent_forces_integration`. -/
def convergedMotion (spin : Bool) (final prev : List (Motion F)) : Bool :=
  let v := ltb (total2 (List.zipWith (fun a b => a.velocity - b.velocity) final prev)
    / total2 (final.map Motion.velocity)) epsilon2
  let l := ltb (total2 (List.zipWith (fun a b => a.angular - b.angular) final prev)
    / total2 (final.map Motion.angular)) epsilon2
  (spin && v && l) || (!spin && v)

/-- whfast.rs 332-389: the loop.  The first argument counts the rounds left of IMPLICIT_MIDPOINT_MAX_ITER = 10
and the second those done (`i`); IMPLICIT_MIDPOINT_MIN_ITER = 3.  `avg` is the motion in
`self.universe.particles`. -/
def midpointLoop {S : Type} (eval : Evaluate S F) (dt : F) (spin evolution : Bool) (orig errors : List (Motion F)) :
    Nat → Nat → S → List (Motion F) → List (Motion F) → List (Motion F) →
    Option (S × List (Motion F) × List (Motion F))
  | 0, _, s, _, final, change => some (s, final, change)
  | left + 1, i, s, avg, prev, _ =>
    match eval s (evolution && i == 0) avg with
    | none => none
    | some (s, rates) =>
      let change := List.zipWith (changeOf dt spin) rates errors
      let final := List.zipWith (finalOf spin) orig change
      if decide (2 ≤ i) && convergedMotion spin final prev then some (s, final, change)
      else midpointLoop eval dt spin evolution orig errors left (i + 1) s
        (List.zipWith (averageOf spin) orig final) final change

/-- whfast.rs 394-421: the new compensation of one particle; without spin the old one stays. -/
def errorOf (spin : Bool) (orig final : Motion F) (change error : Motion F) : Motion F :=
  { velocity := (final.velocity - orig.velocity) - change.velocity,
    angular := if spin then (final.angular - orig.angular) - change.angular else error.angular }

/-- All new compensations. -/
def errorsOf (spin : Bool) : List (Motion F) → List (Motion F) → List (Motion F) → List (Motion F) → List (Motion F)
  | o :: os, f :: fs, c :: cs, e :: es => errorOf spin o f c e :: errorsOf spin os fs cs es
  | _, _, _, _ => []

/-- whfast.rs 321-422 `integrate_velocity_dependent_forces`: hidden state, motions and compensations afterwards. -/
def midpoint {S : Type} (eval : Evaluate S F) (dt : F) (spin evolution : Bool) (s : S) (orig errors : List (Motion F)) :
    Option (S × List (Motion F) × List (Motion F)) :=
  match midpointLoop eval dt spin evolution orig errors 10 0 s orig orig [] with
  | none => none
  | some (s, final, change) => some (s, final, errorsOf spin orig final change errors)

end
end Posidonius.WHFast
