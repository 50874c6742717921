import Verif.Model.WHFast
import Verif.Lemmas.Vec

/-! What the properties of WHFast are about: masses and mass weighted sums. -/

namespace Posidonius.WHFast
open Posidonius

/-- The masses of the planets in alternative coordinates. -/
def SameMasses (a : List (Alt ℝ)) (p : List (Body ℝ)) : Prop :=
  List.Forall₂ (fun a p => a.mass = p.mass ∧ a.massG = p.massG) a p

/-- Total mass of a list. -/
def totalMass (l : List (Body ℝ)) : ℝ := (l.map Body.mass).sum

/-- All masses are positive. -/
def Massive (u : Sys ℝ) : Prop := 0 < u.star.mass ∧ ∀ p ∈ u.planets, 0 < p.mass

/-- Mass of the whole system. -/
def Sys.mass (u : Sys ℝ) : ℝ := u.star.mass + totalMass u.planets

/-- Mass weighted sum of vectors. -/
noncomputable def Sys.weighted (u : Sys ℝ) (f : Body ℝ → Axes ℝ) : Axes ℝ :=
  u.star.mass • f u.star + (u.planets.map fun p => p.mass • f p).sum

/-- Alternative coordinates of the bodies of a system. -/
def Matches (a : AltSys ℝ) (u : Sys ℝ) : Prop := SameMasses a.planets u.planets ∧ a.star.mass = u.mass

/-- The same masses in the same order. -/
def Like (w v : Sys ℝ) : Prop :=
  w.star.mass = v.star.mass ∧ w.star.massG = v.star.massG
  ∧ List.Forall₂ (fun p q : Body ℝ => p.mass = q.mass ∧ p.massG = q.massG) w.planets v.planets

end Posidonius.WHFast
