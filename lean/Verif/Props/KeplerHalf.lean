import Verif.Props.Tools
import Verif.Lemmas.KeplerHalf

/-! # C32: Kepler's equation for eccentricities up to one half -/

namespace Posidonius.Tools
open Posidonius

/-- **C32, moderate eccentricities**: for `e ≤ 1/2` and every mean anomaly that is not negative, the solver's result
satisfies Kepler's equation up to whole turns and `10⁻⁵`. -/
theorem C32_half_partial (e m : ℝ) (he : 0 ≤ e) (he1 : e ≤ 1 / 2) (hm : 0 ≤ m) :
    ∃ k : ℤ, |keplerEllipse e m - e * Real.sin (keplerEllipse e m) - (m + k * (2 * Real.pi))| ≤ 1 / 10 ^ 5 := by
  obtain ⟨h1, h2, k, hk⟩ := C31_modulus m (2 * Real.pi) (by positivity)
  simp only [keplerEllipse, reduceMeanAnomaly, twoPi_real, pi_real', leb_real, ltb_real, lit_real, Rat.cast_zero,
    Rat.cast_one, hm, if_true]
  generalize modulus m (2 * Real.pi) = w at *
  by_cases c2 : Real.pi < w
  · have q := kepler_reduced_half he he1 (l := 2 * Real.pi - w) (by linarith) (by linarith)
    refine ⟨-k - 1, ?_⟩
    simp only [c2, if_true, neg_one_mul, Real.sin_neg]
    rw [← abs_neg]
    refine le_trans (le_of_eq ?_) q
    congr 1
    push_cast
    linear_combination hk
  · have q := kepler_reduced_half he he1 (l := w) h1 (by linarith)
    refine ⟨-k, ?_⟩
    simp only [c2, if_false, one_mul]
    refine le_trans (le_of_eq ?_) q
    congr 1
    push_cast
    linear_combination -hk

/-- Eccentricity 0.4 and mean anomaly 2. -/
example : ∃ k : ℤ, |keplerEllipse (2 / 5) 2 - 2 / 5 * Real.sin (keplerEllipse (2 / 5) 2) - (2 + k * (2 * Real.pi))|
    ≤ 1 / 10 ^ 5 :=
  C32_half_partial (2 / 5) 2 (by norm_num) (by norm_num) (by norm_num)

end Posidonius.Tools
