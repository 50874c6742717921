import Verif.Model.Creep
import Verif.Model.RealTrig
import Verif.Lemmas.Hansen
import Mathlib.Tactic.IntervalCases
import Mathlib.Tactic.NormNum

/-! # C80: the Cayley coefficients of the creep model -/

namespace Posidonius.Creep
open Posidonius Hansen Jet

/-- The coefficients of the powers of `e` in creep_coplanar.rs 477-491. -/
def table2 : List (List ℚ) :=
  [[0, 0, 0, 0, 0, 0, 0, 12144273 / 71680], [0, 0, 0, 0, 0, 0, 73369 / 720],
   [0, 0, 0, 0, 0, 228347 / 3840, 0, -3071075 / 18432], [0, 0, 0, 0, 533 / 16, 0, -13827 / 160],
   [0, 0, 0, 845 / 48, 0, -32525 / 768, 0, 208225 / 6144], [0, 0, 17 / 2, 0, -115 / 6, 0, 601 / 48],
   [0, 7 / 2, 0, -123 / 16, 0, 489 / 128, 0, -1763 / 2048], [1, 0, -5 / 2, 0, 13 / 16, 0, -35 / 288],
   [0, -1 / 2, 0, 1 / 16, 0, -5 / 384, 0, -143 / 18432], [], [0, 0, 0, 1 / 48, 0, 11 / 768, 0, 313 / 30720],
   [0, 0, 0, 0, 1 / 24, 0, 7 / 240], [0, 0, 0, 0, 0, 81 / 1280, 0, 81 / 2048], [0, 0, 0, 0, 0, 0, 4 / 45],
   [0, 0, 0, 0, 0, 0, 0, 15625 / 129024]]

/-- **C80**: the coefficients `E_(2,k)` are the Fourier coefficients of (a/r)³ exp(2iv) up to order seven of the
eccentricity. -/
theorem C80_second : Expands 3 2 (-1) (cayley2 (F := ℝ)) := by
  refine expands_of table2 (fun k hk => approx_poly fun e => ?_) (by decide +kernel)
  interval_cases k <;> simp [cayley2, table2, polyEval, ipow] <;> ring

/-- The coefficients of the powers of `e` that belong to (a/r)³. -/
def table0 : List (List ℚ) :=
  let c0 := [0, 0, 0, 0, 0, 0, 0, 432091 / 30720]
  let c1 := [0, 0, 0, 0, 0, 0, 3167 / 320]
  let c2 := [0, 0, 0, 0, 0, 1773 / 256, 0, -4987 / 6144]
  let c3 := [0, 0, 0, 0, 77 / 16, 0, 129 / 160]
  let c4 := [0, 0, 0, 53 / 16, 0, 393 / 256, 0, 24753 / 10240]
  let c5 := [0, 0, 9 / 4, 0, 7 / 4, 0, 141 / 64]
  let c6 := [0, 3 / 2, 0, 27 / 16, 0, 261 / 128, 0, 14309 / 6144]
  let c7 := [1, 0, 3 / 2, 0, 15 / 8, 0, 35 / 16]
  [c0, c1, c2, c3, c4, c5, c6, c7, c6, c5, c4, c3, c2, c1, c0]

/-- **C80**, what holds for `E_(0,k)`: they are the Fourier coefficients of (a/r)³ up to order seven after three
corrections: of the fifth power in `E_(0,1)` and `E_(0,-1)` and of the sixth power in `E_(0,0)`. -/
theorem C80_zeroth_partial : Expands 3 0 1 fun e : ℝ =>
    List.zipWith (· + ·) (cayley0 e)
      [0, 0, 0, 0, 0, 0, 2 * (261 / 128) * e ^ 5, 2 * (35 / 16) * e ^ 6, 2 * (261 / 128) * e ^ 5, 0, 0, 0, 0, 0, 0] := by
  refine expands_of table0 (fun k hk => approx_poly fun e => ?_) (by decide +kernel)
  interval_cases k <;> simp [cayley0, table0, polyEval, ipow] <;> ring

/-- **C80 violated**: with the signs of the code they are not. -/
theorem C80_violated : ¬ Expands 3 0 1 (cayley0 (F := ℝ)) := by
  refine not_expands C80_zeroth_partial one_pos fun e h0 h1 => ?_
  have key : ∑ k ∈ Finset.range 15, (cayley0 e).getD k 0 - ∑ k ∈ Finset.range 15,
      (List.zipWith (· + ·) (cayley0 e)
      [0, 0, 0, 0, 0, 0, 2 * (261 / 128) * e ^ 5, 2 * (35 / 16) * e ^ 6, 2 * (261 / 128) * e ^ 5, 0, 0, 0, 0, 0, 0]).getD k 0
      = -(e ^ 5 * (261 / 32 + 35 / 8 * e)) := by
    simp [Finset.sum_range_succ, cayley0, ipow]
    ring
  rw [key, abs_neg, abs_of_nonneg (by positivity)]
  have : e ^ 7 = e ^ 5 * e ^ 2 := by ring
  rw [this, one_mul]
  refine mul_le_mul_of_nonneg_left ?_ (by positivity)
  nlinarith

end Posidonius.Creep
