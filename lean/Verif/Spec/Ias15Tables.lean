import Verif.Spec.Ias15

/-! # The tables of IAS15: Newton's form of the acceleration polynomial -/

namespace Posidonius.Ias15

/-- Newton's basis polynomial `τ (τ - h₁) ... (τ - hⱼ)`. -/
noncomputable def newtonBasis (h : ℕ → ℝ) (j : ℕ) (τ : ℝ) : ℝ := τ * ((List.range j).map fun i => τ - h (i + 1)).prod

/-- Tables that belong to the spacings exactly: `r` are the differences, `c` expand Newton's basis in powers and `d`
powers in Newton's basis. -/
structure Exact (T : Tables ℝ) : Prop where
  first : T.h 0 = 0
  distinct : ∀ j ≤ 7, ∀ k < j, T.h j ≠ T.h k
  r : ∀ j ≤ 7, ∀ k < j, T.r (j * (j - 1) / 2 + k) = T.h j - T.h k
  c : ∀ j ≤ 6, ∀ τ, newtonBasis T.h j τ
    = ((List.range j).map fun k => T.c (j * (j - 1) / 2 + k) * τ ^ (k + 1)).sum + τ ^ (j + 1)
  d : ∀ j ≤ 6, ∀ τ, τ ^ (j + 1)
    = ((List.range j).map fun k => T.d (j * (j - 1) / 2 + k) * newtonBasis T.h k τ).sum + newtonBasis T.h j τ

/-- The polynomial in Newton's form. -/
noncomputable def newtonForm (h : ℕ → ℝ) (g : Seven ℝ) (τ : ℝ) : ℝ :=
  g.c0 * newtonBasis h 0 τ + g.c1 * newtonBasis h 1 τ + g.c2 * newtonBasis h 2 τ + g.c3 * newtonBasis h 3 τ
    + g.c4 * newtonBasis h 4 τ + g.c5 * newtonBasis h 5 τ + g.c6 * newtonBasis h 6 τ

end Posidonius.Ias15
