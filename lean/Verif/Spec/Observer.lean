import Verif.Model.LeapfrogUniverse
import Verif.Lemmas.Vec

/-! The same system described by another observer. -/

namespace Posidonius.Univ

/-- A rotation, given by the images of the first two axes; the third one completes a right-handed frame. -/
structure Turn where
  a : Axes ℝ
  b : Axes ℝ
  unit_a : a.dot a = 1
  unit_b : b.dot b = 1
  orthogonal : a.dot b = 0

/-- The rotated vector. -/
noncomputable def Turn.on (r : Turn) (v : Axes ℝ) : Axes ℝ := v.x • r.a + v.y • r.b + v.z • r.a.cross r.b

/-- An observer with rotated axes, another origin and a uniform motion. -/
structure Observer where
  turn : Turn
  place : Axes ℝ
  speed : Axes ℝ

/-- The particle as this observer describes it.  The deformations of the creep model are numbers in the frame of the
orbit and stay. -/
noncomputable def Observer.sees (o : Observer) (p : Particle ℝ) : Particle ℝ :=
  { p with
    inertialPosition := o.turn.on p.inertialPosition + o.place
    inertialVelocity := o.turn.on p.inertialVelocity + o.speed
    inertialAcceleration := o.turn.on p.inertialAcceleration
    inertialAdditionalAcceleration := o.turn.on p.inertialAdditionalAcceleration
    heliocentricPosition := o.turn.on p.heliocentricPosition
    heliocentricVelocity := o.turn.on p.heliocentricVelocity
    spin := o.turn.on p.spin
    angularMomentum := o.turn.on p.angularMomentum
    dAngularMomentumDt := o.turn.on p.dAngularMomentumDt
    tides := { p.tides with
      acceleration := o.turn.on p.tides.acceleration
      dAngularMomentumDt := o.turn.on p.tides.dAngularMomentumDt
      position := o.turn.on p.tides.position
      velocity := o.turn.on p.tides.velocity }
    flattening := { p.flattening with
      acceleration := o.turn.on p.flattening.acceleration
      dAngularMomentumDt := o.turn.on p.flattening.dAngularMomentumDt
      position := o.turn.on p.flattening.position
      velocity := o.turn.on p.flattening.velocity }
    gr := { p.gr with
      acceleration := o.turn.on p.gr.acceleration
      dAngularMomentumDt := o.turn.on p.gr.dAngularMomentumDt
      position := o.turn.on p.gr.position
      velocity := o.turn.on p.gr.velocity }
    wind := { p.wind with dAngularMomentumDt := o.turn.on p.wind.dAngularMomentumDt }
    disk := { p.disk with
      acceleration := o.turn.on p.disk.acceleration
      position := o.turn.on p.disk.position
      velocity := o.turn.on p.disk.velocity } }

/-- The universe as this observer describes it. -/
noncomputable def Observer.describes {n : Nat} (o : Observer) (u : Universe ℝ n) : Universe ℝ n :=
  { u with particles := fun i => o.sees (u.particles i) }

/-- The observer after a while. -/
noncomputable def Observer.later (o : Observer) (t : ℝ) : Observer := { o with place := o.place + t • o.speed }

/-- The axes that stay as they are. -/
noncomputable def Turn.still : Turn where
  a := ⟨1, 0, 0⟩
  b := ⟨0, 1, 0⟩
  unit_a := by simp [Axes.dot]
  unit_b := by simp [Axes.dot]
  orthogonal := by simp [Axes.dot]

/-- An observer with the same axes. -/
noncomputable def Observer.moving (place speed : Axes ℝ) : Observer := ⟨.still, place, speed⟩

/-- Iterations of LeapFrog from the given times, with or without a record before each of them. -/
def leapfrogRun {F : Type} [Add F] [Sub F] [Mul F] [Div F] [Neg F] [FOps F] [FPow F] [FTrig F] {n : Nat}
    (k : Consts F) (m : Models F) (eps2 : F) (roche : Fin n → Fin n → F) (dt half : F) :
    List (F × Bool) → Universe F n → Option (Universe F n)
  | [], u => some u
  | (time, record) :: l, u =>
    (leapfrogIterate k m eps2 roche dt half time record u).bind (leapfrogRun k m eps2 roche dt half l)

end Posidonius.Univ
