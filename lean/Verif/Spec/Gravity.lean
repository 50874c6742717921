import Verif.Lemmas.Vec

/-! # Specification: point masses under Newton's law -/

namespace Posidonius.Gravity

/-- A linear map that keeps scalar products: a rotation or reflection. -/
structure Isometry where
  map : Axes ℝ → Axes ℝ
  map_add : ∀ u v, map (u + v) = map u + map v
  map_smul : ∀ (k : ℝ) u, map (k • u) = k • map u
  dot : ∀ u v, (map u).dot (map v) = u.dot v

/-- Newton: the acceleration of a body at `r` caused by a mass `m` at `s` is
`G m (s - r) / |s - r|^3`. -/
noncomputable def newton (G m : ℝ) (r s : Axes ℝ) : Axes ℝ :=
  (G * m / Real.sqrt ((s - r).dot (s - r)) ^ 3) • (s - r)

/-- Total linear momentum. -/
noncomputable def momentum {n : Nat} (m : Fin n → ℝ) (v : Fin n → Axes ℝ) : Axes ℝ := ∑ i, m i • v i

/-- Total angular momentum (orbital) about the origin. -/
noncomputable def angularMomentum {n : Nat} (m : Fin n → ℝ) (r v : Fin n → Axes ℝ) : Axes ℝ :=
  ∑ i, m i • (r i).cross (v i)

end Posidonius.Gravity
