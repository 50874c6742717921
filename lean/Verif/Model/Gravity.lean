import Verif.Model.Vec

/-!
# Newtonian gravity, collisions and ejections

/repo/src/particles/universe.rs 177-303.  `n` is `n_particles`; the arrays of size MAX_PARTICLES are
only used up to `n_particles` here and are modelled as functions on `Fin n`.
-/

namespace Posidonius.Gravity

/-- The part of /repo/src/particles/particle.rs `Particle` used here (inertial frame). -/
structure Body (F : Type) where
  mass : F
  radius : F
  position : Axes F
  velocity : Axes F

/-- universe.rs 66-70 `IgnoreGravityTerms`. -/
inductive Ignore where
  | none
  | whfastOne
  | whfastTwo
deriving DecidableEq, Repr

/-- The three panics of `gravity_calculate_acceleration` (universe.rs 227, 232, 236). -/
inductive Stop where
  | destroyed (a b : Nat)
  | collision (a b : Nat)
  | ejected (b : Nat)
deriving DecidableEq, Repr

section
variable {F : Type} [Add F] [Sub F] [Mul F] [Div F] [Neg F] [FOps F]

/-- universe.rs 177-196 `calculate_roche_radiuses`, entry (i, j); the diagonal keeps its initial 0
(line 159).  `a` is particle i, `b` particle j. -/
def rocheRadius [FPow F] (a b : Body F) : F :=
  if ltb b.mass a.mass then
    (b.radius / lit 0.462) * FPow.powf (a.mass / b.mass) (lit 1 / lit 3)
  else
    (a.radius / lit 0.462) * FPow.powf (b.mass / a.mass) (lit 1 / lit 3)

/-- The whole table (universe.rs 177-196). -/
def rocheRadii [FPow F] {n : Nat} (p : Fin n → Body F) (i j : Fin n) : F :=
  if i = j then lit 0 else rocheRadius (p i) (p j)

/-- universe.rs 219-222: squared distance. -/
def distance2 (a b : Body F) : F := Axes.norm2 (a.position - b.position)

/-- constants.rs `MAX_DISTANCE_2`. -/
def maxDistance2 : F := lit 10000

/-- universe.rs 224-238: the checks for the pair (i, j), done only if i < j.  `roche` is the stored table
(`roche_radiuses`), `mm` is `hosts.index.most_massive`.  `powi(2)` is `x*x`. -/
def check {n : Nat} (p : Fin n → Body F) (roche : Fin n → Fin n → F) (mm : Nat) (i j : Fin n) :
    Option Stop :=
  if i < j then
    if leb (distance2 (p i) (p j)) (roche i j * roche i j) then some (.destroyed i j)
    else if leb (distance2 (p i) (p j))
        (((p i).radius + (p j).radius) * ((p i).radius + (p j).radius)) then some (.collision i j)
    else if ltb (lit 0) (maxDistance2 : F) && decide (i.val = mm) && ltb maxDistance2 (distance2 (p i) (p j))
      then some (.ejected j)
    else none
  else none

/-- universe.rs 241-255: pairs whose interaction is left out. -/
def ignored (ig : Ignore) (mm i j : Nat) : Bool :=
  match ig with
  | .none => false
  | .whfastOne =>
    (i == mm && mm == 0 && j == 1) || (i == mm && decide (mm > 0) && j == 0)
      || (j == mm && mm == 0 && i == 1) || (j == mm && decide (mm > 0) && i == 0)
  | .whfastTwo => i == mm || j == mm

/-- universe.rs 269-274: acceleration of particle a caused by particle b; `g` is the constant G. -/
def pairAcceleration (g : F) (a b : Body F) : Axes F :=
  let d := a.position - b.position
  let distance := FOps.sqrt (Axes.norm2 d)
  let prefact := (-g) / (distance * distance * distance) * b.mass
  prefact • d

/-- universe.rs 213-298, inner loop for particle `i` (without the checks). -/
def acceleration {n : Nat} (g : F) (p : Fin n → Body F) (ig : Ignore) (mm : Nat) (i : Fin n) : Axes F :=
  (List.finRange n).foldl
    (fun acc j => if i = j then acc else if ignored ig mm i j then acc
      else acc + pairAcceleration g (p i) (p j)) Axes.zero

/-- The checks in the order of the loops: the first that fires stops the program. -/
def firstStop {n : Nat} (p : Fin n → Body F) (roche : Fin n → Fin n → F) (mm : Nat) : Option Stop :=
  (List.finRange n).findSome? fun i => (List.finRange n).findSome? fun j =>
    if i = j then none else check p roche mm i j

/-- universe.rs 198-303 `gravity_calculate_acceleration`: new inertial accelerations or a panic.
Simplified: the checks of all the pairs come before the sums; in the code they alternate, but the sums
are local to the function and lost in a panic. -/
def gravity {n : Nat} (g : F) (p : Fin n → Body F) (roche : Fin n → Fin n → F) (ig : Ignore) (mm : Nat) :
    Except Stop (Fin n → Axes F) :=
  match firstStop p roche mm with
  | some s => .error s
  | none => .ok (acceleration g p ig mm)

end
end Posidonius.Gravity
