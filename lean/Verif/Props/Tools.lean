import Verif.Lemmas.Tools
import Verif.Lemmas.KeplerEllipse
import Verif.Props.Interp
import Mathlib.Analysis.SpecialFunctions.Trigonometric.Bounds
import Mathlib.Analysis.SpecialFunctions.Trigonometric.DerivHyp
import Mathlib.Analysis.Real.Pi.Bounds
import Mathlib.Algebra.Order.Floor.Ring

/-! # C31, C32, C56, C57, C58, C59: orbital elements -/

namespace Posidonius.Tools
open Posidonius.Kepler

/-! ## C31 -/

/-- **C31**: `modulus a b` is in `[0, b)` and differs from `a` by a whole multiple of `b`. -/
theorem C31_modulus (a b : ℝ) (hb : 0 < b) :
    0 ≤ modulus a b ∧ modulus a b < b ∧ ∃ k : ℤ, a = modulus a b + k * b := by
  have h1 := Int.floor_le (a / b)
  have h2 := Int.lt_floor_add_one (a / b)
  rw [le_div_iff₀ hb] at h1
  rw [div_lt_iff₀ hb] at h2
  refine ⟨?_, ?_, ⌊a / b⌋, ?_⟩ <;> simp only [modulus, floor_real] <;> nlinarith

example : modulus (-21 : ℝ) 4 = 3 := by
  have : ⌊(-21 / 4 : ℝ)⌋ = -6 := by rw [Int.floor_eq_iff]; norm_num
  simp only [modulus, floor_real, this]; norm_num

/-- **C26** for the cosine interpolation: the result lies between any bounds of the tabulated values and is
the tabulated value at a tabulated abscissa. -/
theorem C26_cosine (t : ℝ) (x y : List ℝ) (hne : x ≠ []) (hx : Interp.Increasing x)
    (hl : y.length = x.length) (lo hi : ℝ) (hb : ∀ v ∈ y, lo ≤ v ∧ v ≤ hi) :
    ∃ r l, cosineInterpolation t x y = some (r, l) ∧ lo ≤ r ∧ r ≤ hi ∧
      ∀ i (h : i < x.length), t = x[i] → r = y[i] := by
  have hlen : 0 < x.length := List.length_pos_iff.mpr hne
  have hy : ∀ j (hj : j < y.length), lo ≤ y[j] ∧ y[j] ≤ hi := fun j hj => hb _ (List.getElem_mem hj)
  have idx : ∀ i k (h : i < x.length) (h' : k < x.length), x[i] ≤ x[k] → i ≤ k := by
    intro i k h h' hle
    by_contra hc
    have := hx k i h (by omega)
    linarith
  rcases Interp.findIndices_cases x t hne with ⟨hall, h⟩ | ⟨h0, h1, h⟩ | ⟨k, hk, h1, h2, h⟩
  · have e3 : y[x.length - 1]? = some (y[x.length - 1]'(by omega)) := List.getElem?_eq_getElem (by omega)
    refine ⟨y[x.length - 1]'(by omega), x.length - 1, by simp [cosineInterpolation, h, e3], (hy _ _).1,
      (hy _ _).2, ?_⟩
    intro i hi' ht
    have h3 : x[x.length - 1] ≤ t := by simpa using hall _ (List.getElem_mem (by omega))
    have h4 := idx (x.length - 1) i (by omega) hi' (by rw [← ht]; exact h3)
    have : x.length - 1 = i := by omega
    simp only [this]
  · have e3 : y[0]? = some (y[0]'(by omega)) := List.getElem?_eq_getElem (by omega)
    refine ⟨y[0]'(by omega), 0, by simp [cosineInterpolation, h, e3], (hy _ _).1, (hy _ _).2, ?_⟩
    intro i hi' ht
    rw [ltb_real, ht] at h1
    have := hx.le_of_le (i := 0) (j := i) hi' (by omega)
    linarith
  · have e1 : x[k]? = some x[k] := List.getElem?_eq_getElem (by omega)
    have e2 : x[k + 1]? = some x[k + 1] := List.getElem?_eq_getElem hk
    have e3 : y[k]? = some (y[k]'(by omega)) := List.getElem?_eq_getElem (by omega)
    have e4 : y[k + 1]? = some (y[k + 1]'(by omega)) := List.getElem?_eq_getElem (by omega)
    obtain ⟨a1, a2⟩ := hy k (by omega)
    obtain ⟨b1, b2⟩ := hy (k + 1) (by omega)
    have h3 : x[k] ≤ t := by simpa using h2 k (by omega)
    have c1 := Real.neg_one_le_cos ((t - x[k]) / (x[k + 1] - x[k]) * Real.pi)
    have c2 := Real.cos_le_one ((t - x[k]) / (x[k + 1] - x[k]) * Real.pi)
    refine ⟨y[k] * (1 - (1 - Real.cos ((t - x[k]) / (x[k + 1] - x[k]) * Real.pi)) / 2) +
      y[k + 1] * ((1 - Real.cos ((t - x[k]) / (x[k + 1] - x[k]) * Real.pi)) / 2), k, ?_, ?_, ?_, ?_⟩
    · simp [cosineInterpolation, h, e1, e2, e3, e4, pi]
    · generalize Real.cos ((t - x[k]) / (x[k + 1] - x[k]) * Real.pi) = c at c1 c2
      nlinarith
    · generalize Real.cos ((t - x[k]) / (x[k + 1] - x[k]) * Real.pi) = c at c1 c2
      nlinarith
    · intro i hi' ht
      rw [ltb_real, ht] at h1
      have g1 := idx k i (by omega) hi' (by rw [← ht]; exact h3)
      have g2 : i < k + 1 := by
        by_contra hc
        have := hx.le_of_le (i := k + 1) (j := i) hi' (by omega)
        linarith
      have : i = k := by omega
      subst this
      simp [ht]

example : ∃ r l, cosineInterpolation (2 : ℝ) [0, 1, 3] [5, 7, 6] = some (r, l) ∧ 5 ≤ r ∧ r ≤ 7 := by
  obtain ⟨r, l, h, h1, h2, _⟩ := C26_cosine 2 [0, 1, 3] [5, 7, 6] (by simp) Interp.demo_increasing rfl 5 7
    (by intro v hv; simp at hv; rcases hv with rfl | rfl | rfl <;> norm_num)
  exact ⟨r, l, h, h1, h2⟩

theorem twoPi_real : (twoPi : ℝ) = 2 * Real.pi := by simp [twoPi, mul_comm]
theorem pi_real' : (pi : ℝ) = Real.pi := rfl

/-! ## C32: Kepler's equation -/

/-- Barker's equation for `|m| ≥ 1/1000`: the solution is exact. -/
theorem barker_exact {q : ℝ} (hq : 0 < q) :
    let x := (1 / 2) * (3 * q + Real.sqrt (9 * (q * q) + 4))
    let t := x ^ ((1 : ℝ) / 3)
    (t - 1 / t) + (t - 1 / t) ^ 3 / 3 = q := by
  intro x t
  have hs : 0 ≤ 9 * (q * q) + 4 := by positivity
  have hsq := Real.sq_sqrt hs
  set w := Real.sqrt (9 * (q * q) + 4) with hw
  have hw0 : 0 ≤ w := Real.sqrt_nonneg _
  have hx : 0 < x := by simp only [x]; positivity
  have ht : 0 < t := Real.rpow_pos_of_pos hx _
  have ht3 : t ^ 3 = x := by
    rw [← Real.rpow_natCast, ← Real.rpow_mul hx.le]
    norm_num
  have hx2 : x ^ 2 - 1 = 3 * q * x := by
    simp only [x]
    nlinarith [hsq]
  have key : (t - 1 / t) + (t - 1 / t) ^ 3 / 3 = (t ^ 3 - 1 / t ^ 3) / 3 := by
    field_simp
    ring
  rw [key, ht3]
  field_simp
  linarith

/-- **C32, parabola**: the anomaly returned satisfies Barker's equation, exactly for `|m| ≥ 1/1000` and up to
`|m|^7 ≤ 10⁻²¹` for smaller `|m|`. -/
theorem C32_partial_parabola (m : ℝ) :
    (1 / 1000 ≤ |m| → parabolaEquation m (keplerParabola m).2) ∧
    (|m| < 1 / 1000 → |(keplerParabola m).2 + (keplerParabola m).2 ^ 3 / 3 - m| ≤ |m| ^ 7) := by
  have small : ∀ q : ℝ, 0 ≤ q → q < 1 / 1000 →
      |q * (1 - (q * q / 3) * (1 - q * q)) + (q * (1 - (q * q / 3) * (1 - q * q))) ^ 3 / 3 - q| ≤ q ^ 7 := by
    intro q h0 h1
    set y := q * q with hy
    have y0 : 0 ≤ y := mul_self_nonneg q
    have y1 : y ≤ 1 := by nlinarith
    have e : q * (1 - (y / 3) * (1 - y)) + (q * (1 - (y / 3) * (1 - y))) ^ 3 / 3 - q =
        q ^ 7 * (1 / 3 + (1 - y) ^ 2 / 9 - y * (1 - y) ^ 3 / 81) := by
      rw [hy]; ring
    have b1 : 0 ≤ (1 - y) ^ 2 := sq_nonneg _
    have b2 : (1 - y) ^ 2 ≤ 1 := by nlinarith
    have b3 : 0 ≤ y * (1 - y) ^ 3 := mul_nonneg y0 (pow_nonneg (by linarith) _)
    have b4 : y * (1 - y) ^ 3 ≤ 1 := by
      have : (1 - y) ^ 3 ≤ 1 := pow_le_one₀ (by linarith) (by linarith)
      have h0 : 0 ≤ (1 - y) ^ 3 := pow_nonneg (by linarith) _
      nlinarith
    have hb : |1 / 3 + (1 - y) ^ 2 / 9 - y * (1 - y) ^ 3 / 81| ≤ 1 := by
      rw [abs_le]; constructor <;> linarith
    have hq7 : 0 ≤ q ^ 7 := pow_nonneg h0 _
    rw [e, abs_mul, abs_of_nonneg hq7]
    nlinarith
  have val : (keplerParabola m).2 = if m < 0 then
      -(if -m < 1 / 1000 then -m * (1 - (-m * -m / 3) * (1 - -m * -m)) else
        ((1 / 2) * (3 * -m + Real.sqrt (9 * (-m * -m) + 4))) ^ ((1 : ℝ) / 3) -
          1 / ((1 / 2) * (3 * -m + Real.sqrt (9 * (-m * -m) + 4))) ^ ((1 : ℝ) / 3)) else
      (if m < 1 / 1000 then m * (1 - (m * m / 3) * (1 - m * m)) else
        ((1 / 2) * (3 * m + Real.sqrt (9 * (m * m) + 4))) ^ ((1 : ℝ) / 3) -
          1 / ((1 / 2) * (3 * m + Real.sqrt (9 * (m * m) + 4))) ^ ((1 : ℝ) / 3)) := by
    by_cases h : m < 0
    · simp only [keplerParabola, ltb_real, lit_real, sqrt_real, powf_real, Rat.cast_zero, h, if_true]
      norm_num
    · simp only [keplerParabola, ltb_real, lit_real, sqrt_real, powf_real, Rat.cast_zero, h, if_false]
      norm_num
  rw [val]
  constructor
  · intro hm
    unfold parabolaEquation
    by_cases h : m < 0
    · rw [abs_of_neg h] at hm
      have hq : 0 < -m := by linarith
      have := barker_exact hq
      simp only at this
      rw [if_pos h, if_neg (by linarith)]
      linear_combination -this
    · rw [abs_of_nonneg (by linarith)] at hm
      have hq : 0 < m := by linarith
      have := barker_exact hq
      simp only at this
      rw [if_neg h, if_neg (by linarith)]
      linear_combination this
  · intro hm
    by_cases h : m < 0
    · rw [abs_of_neg h] at hm ⊢
      rw [if_pos h, if_pos hm]
      have := small (-m) (by linarith) hm
      rw [← abs_neg]
      refine le_trans (le_of_eq ?_) this
      congr 1
      ring
    · rw [abs_of_nonneg (not_lt.mp h)] at hm ⊢
      rw [if_neg h, if_pos hm]
      exact small m (not_lt.mp h) hm

example : parabolaEquation (4 / 3) (keplerParabola (4 / 3 : ℝ)).2 :=
  (C32_partial_parabola (4 / 3)).1 (by norm_num [abs_of_pos])

/-- **C32 is violated for hyperbolas**: if the mean anomaly `n ≠ 0` is below the switching point, the solver
returns `n` itself; for `e ≥ 2` that is never a solution. -/
theorem C32_violated_hyperbola (e n : ℝ) (he : 2 ≤ e) (hn : |n| < 0.636 * e - 0.6) (h0 : n ≠ 0) :
    keplerHyperbola e n = n ∧ ¬ hyperbolaEquation e n (keplerHyperbola e n) := by
  have hv : keplerHyperbola e n = n := by
    have hc : |n| < ((0.636 : ℚ) : ℝ) * e - ((0.6 : ℚ) : ℝ) := by norm_num at hn ⊢; linarith
    by_cases h : n < 0
    · rw [abs_of_neg h] at hc
      simp only [keplerHyperbola, hyperbolaLowN, ltb_real, lit_real, Rat.cast_zero, h, if_true, hc,
        neg_neg]
    · rw [abs_of_nonneg (not_lt.mp h)] at hc
      simp only [keplerHyperbola, hyperbolaLowN, ltb_real, lit_real, Rat.cast_zero, h, if_false, hc,
        if_true]
  refine ⟨hv, ?_⟩
  rw [hv]
  unfold hyperbolaEquation
  intro h
  rcases lt_or_gt_of_ne h0 with hneg | hpos
  · have := Real.self_lt_sinh_iff (x := -n) |>.mpr (by linarith)
    rw [Real.sinh_neg] at this
    nlinarith
  · have := Real.self_lt_sinh_iff (x := n) |>.mpr hpos
    nlinarith

/-- Eccentricity 2, mean anomaly 1/2: the code returns 1/2. -/
example : ¬ hyperbolaEquation 2 (1 / 2) (keplerHyperbola 2 (1 / 2 : ℝ)) :=
  (C32_violated_hyperbola 2 (1 / 2) le_rfl (by norm_num [abs_of_pos]) (by norm_num)).2

/-- **C32 is violated for negative mean anomalies on an ellipse**: for `e = 1/2` and `M = 1 - 2π` the value
returned does not solve Kepler's equation, not even up to whole turns. -/
theorem C32_violated_ellipse :
    ¬ ellipseEquation (1 / 2) (1 - 2 * Real.pi) (keplerEllipse (1 / 2) (1 - 2 * Real.pi)) := by
  have hpi := Real.pi_gt_d2
  have hpi' := Real.pi_lt_d2
  have hred : reduceMeanAnomaly (1 - 2 * Real.pi) = (-1, -1) := by
    have h1 : ¬ (0 : ℝ) ≤ 1 - 2 * Real.pi := by linarith
    have hm : modulus (1 - 2 * Real.pi) (2 * Real.pi) = 1 := by
      have hf : ⌊(1 - 2 * Real.pi) / (2 * Real.pi)⌋ = -1 := by
        rw [Int.floor_eq_iff]
        constructor
        · rw [le_div_iff₀ (by linarith)]; push_cast; linarith
        · rw [div_lt_iff₀ (by linarith)]; push_cast; linarith
      simp only [modulus, floor_real, hf]; push_cast; ring
    have h2 : Real.pi < 1 + 2 * Real.pi := by linarith
    simp only [reduceMeanAnomaly, leb_real, ltb_real, lit_real, Rat.cast_zero, h1, if_false, twoPi_real,
      pi_real', hm, h2, if_true, Rat.cast_one]
    norm_num
  have hstart : keplerStart (1 / 2 : ℝ) (-1) = -11382047142031 / 2980843991218 := by
    have hb : (leb (lit 0.45) (-1 : ℝ) || ltb (1 / 2 : ℝ) (lit 0.55)) = true := by
      rw [Bool.or_eq_true]; right
      simp only [ltb_real, lit_real]; norm_num
    have h1 : ltb (-1 : ℝ) (lit 1 - 1 / 2) = true := by
      simp only [ltb_real, lit_real]; norm_num
    have h2 : ltb (lit (1 / 2) * pi : ℝ) (lit 1 - 1 / 2) = false := by
      simp only [ltb_real_false, lit_real, pi_real']; push_cast; linarith
    simp only [keplerStart, hb, if_true, h1, h2, Bool.false_eq_true, if_false]
    simp only [lit_real]
    norm_num
  have hfin : keplerFinish (1 / 2 : ℝ) (-1) (-11382047142031 / 2980843991218) < -1.59 ∧
      -1.6 < keplerFinish (1 / 2 : ℝ) (-1) (-11382047142031 / 2980843991218) := by
    have h1 : ltb (lit (1 / 2) * pi : ℝ) (-11382047142031 / 2980843991218) = false := by
      simp only [ltb_real_false, lit_real, pi_real']; push_cast; linarith
    have h2 : ltb (lit (1 / 2) * (lit (1 / 2) * pi) : ℝ) (-11382047142031 / 2980843991218) = false := by
      simp only [ltb_real_false, lit_real, pi_real']; push_cast; linarith
    simp only [keplerFinish, sinCosDefects, h1, h2, Bool.false_eq_true, if_false]
    simp only [seriesSS, seriesCC, lit_real]
    norm_num
  have hval : 1.59 < keplerEllipse (1 / 2) (1 - 2 * Real.pi) ∧
      keplerEllipse (1 / 2) (1 - 2 * Real.pi) < 1.6 := by
    simp only [keplerEllipse, hred, hstart]
    constructor <;> linarith [hfin.1, hfin.2]
  generalize keplerEllipse (1 / 2) (1 - 2 * Real.pi) = u at hval
  rintro ⟨k, hk⟩
  have hs1 := Real.sin_le_one u
  have hs2 := Real.neg_one_le_sin u
  have hk1 : 0 < ((k : ℝ) - 1) * (2 * Real.pi) := by nlinarith [hval.1]
  have hk2 : ((k : ℝ) - 1) * (2 * Real.pi) < 2 * Real.pi := by nlinarith [hval.2]
  have h3 : (0 : ℝ) < k - 1 := by
    by_contra h
    have : ((k : ℝ) - 1) * (2 * Real.pi) ≤ 0 := mul_nonpos_of_nonpos_of_nonneg (not_lt.mp h) (by linarith)
    linarith
  have h4 : (k : ℝ) - 1 < 1 := by
    by_contra h
    have : 2 * Real.pi ≤ ((k : ℝ) - 1) * (2 * Real.pi) := by nlinarith
    linarith
  have h5 : (1 : ℤ) < k := by exact_mod_cast (by linarith : (1 : ℝ) < k)
  have h6 : k < 2 := by exact_mod_cast (by linarith : (k : ℝ) < 2)
  omega

/-- **C32, circular orbits**: for `e = 0` the solver is exact for every mean anomaly. -/
theorem C32_partial_circular (m : ℝ) : ellipseEquation 0 m (keplerEllipse 0 m) := by
  have hst : ∀ l : ℝ, keplerStart 0 l = l := by
    intro l
    have hb : (leb (lit 0.45) l || ltb (0 : ℝ) (lit 0.55)) = true := by
      rw [Bool.or_eq_true]; right
      simp only [ltb_real, lit_real]; norm_num
    rw [keplerStart, hb]
    simp
  have hfin : ∀ l : ℝ, keplerFinish 0 l l = l := by
    intro l
    simp [keplerFinish]
  obtain ⟨h1, h2, k, hk⟩ := C31_modulus m (2 * Real.pi) (by positivity)
  simp only [keplerEllipse, reduceMeanAnomaly, hst, hfin, ellipseEquation, twoPi_real, pi_real', leb_real,
    ltb_real, lit_real, Rat.cast_zero, Rat.cast_one]
  set w := modulus m (2 * Real.pi)
  by_cases c1 : 0 ≤ m
  · simp only [c1, if_true]
    by_cases c2 : Real.pi < w
    · refine ⟨-k - 1, ?_⟩
      simp only [c2, if_true]; push_cast; linear_combination -hk
    · refine ⟨-k, ?_⟩
      simp only [c2, if_false]; push_cast; linear_combination -hk
  · simp only [c1, if_false]
    have c2 : Real.pi < w + 2 * Real.pi := by linarith [Real.pi_pos]
    refine ⟨-k, ?_⟩
    simp only [c2, if_true]; push_cast; linear_combination -hk

/-- **C32, small eccentricities**: for `e ≤ 1/10` and every mean anomaly that is not negative, the solver's result
satisfies Kepler's equation up to whole turns and `e⁵/50 + 2e/10¹⁶`. -/
theorem C32_ellipse_partial (e m : ℝ) (he : 0 ≤ e) (he1 : e ≤ 1 / 10) (hm : 0 ≤ m) :
    ∃ k : ℤ, |keplerEllipse e m - e * Real.sin (keplerEllipse e m) - (m + k * (2 * Real.pi))|
      ≤ e ^ 5 / 50 + e * (2 / 10 ^ 16) := by
  obtain ⟨h1, h2, k, hk⟩ := C31_modulus m (2 * Real.pi) (by positivity)
  simp only [keplerEllipse, reduceMeanAnomaly, twoPi_real, pi_real', leb_real, ltb_real, lit_real, Rat.cast_zero,
    Rat.cast_one, hm, if_true]
  generalize modulus m (2 * Real.pi) = w at *
  by_cases c2 : Real.pi < w
  · have q := kepler_reduced he he1 (l := 2 * Real.pi - w) (by linarith) (by linarith)
    refine ⟨-k - 1, ?_⟩
    simp only [c2, if_true, neg_one_mul, Real.sin_neg]
    rw [← abs_neg]
    refine le_trans (le_of_eq ?_) q
    congr 1
    push_cast
    linear_combination hk
  · have q := kepler_reduced he he1 (l := w) (by linarith) (by linarith)
    refine ⟨-k, ?_⟩
    simp only [c2, if_false, one_mul]
    refine le_trans (le_of_eq ?_) q
    congr 1
    push_cast
    linear_combination -hk

/-- The hypotheses allow a third of a turn on an orbit like the Earth's. -/
example : ∃ k : ℤ, |keplerEllipse (167 / 10000) 2 - 167 / 10000 * Real.sin (keplerEllipse (167 / 10000) 2)
    - (2 + k * (2 * Real.pi))| ≤ 1 / 10 ^ 10 := by
  obtain ⟨k, hk⟩ := C32_ellipse_partial (167 / 10000) 2 (by norm_num) (by norm_num) (by norm_num)
  exact ⟨k, hk.trans (by norm_num)⟩

end Posidonius.Tools
