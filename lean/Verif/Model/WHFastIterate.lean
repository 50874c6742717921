import Verif.Model.WHFast
import Verif.Model.Midpoint

/-!
# WHFast: a whole iteration

/repo/src/integrator/whfast.rs 264-295.  The particles are the system of `Model/WHFast` (star first) with their
angular momenta beside; the output part of the iteration is in `Model/Output`.  What else the effects read or
change is a hidden state of arbitrary type.
-/

namespace Posidonius.WHFast

/-- What an iteration changes. -/
structure Run (S F : Type) where
  sys : Sys F
  angular : List (Axes F)
  errors : List (Motion F)
  hidden : S
  time : F

section
variable {F : Type} [Add F] [Sub F] [Mul F] [Div F] [Neg F] [FOps F] {S : Type}

/-- All bodies, star first. -/
def Sys.bodies (u : Sys F) : List (Body F) := u.star :: u.planets

/-- Velocities and angular momenta of all particles. -/
def Run.motions (r : Run S F) : List (Motion F) := List.zipWith (fun p l => ⟨p.velocity, l⟩) r.sys.bodies r.angular

/-- Write new velocities into the particles. -/
def Sys.withVelocities (u : Sys F) (l : List (Motion F)) : Sys F :=
  match l with
  | [] => u
  | m :: ms => { star := { u.star with velocity := m.velocity },
                 planets := List.zipWith (fun (p : Body F) n => { p with velocity := n.velocity }) u.planets ms }

/-- whfast.rs 321-422 on the particles: the effects see positions and time of the state and the motions tried. -/
def Run.forced (eval : Sys F → F → Evaluate S F) (half : F) (spin evolution : Bool) (r : Run S F) : Option (Run S F) :=
  match midpoint (eval r.sys r.time) half spin evolution r.hidden r.motions r.errors with
  | none => none
  | some (s, final, errors) =>
    some { r with sys := r.sys.withVelocities final, angular := final.map Motion.angular, errors := errors, hidden := s }

/-- whfast.rs 278-295: forces over half a step, the step, forces over half a step. -/
def Run.iterate [FTrig F] (c : Coordinates) (fuel : Nat) (g dt half : F) (spin : Bool)
    (eval : Sys F → F → Evaluate S F) (gravity : Sys F → Option (Sys F)) (r : Run S F) : Option (Run S F) :=
  match r.forced eval half spin true with
  | none => none
  | some r =>
    match step c fuel g dt half gravity r.sys with
    | none => none
    | some u =>
      match { r with sys := u }.forced eval half spin false with
      | none => none
      | some r => some { r with time := r.time + dt }

end
end Posidonius.WHFast
