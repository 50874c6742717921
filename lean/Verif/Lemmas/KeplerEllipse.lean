import Verif.Lemmas.Tools
import Mathlib.Analysis.SpecialFunctions.Trigonometric.Bounds
import Mathlib.Analysis.SpecialFunctions.Trigonometric.Series
import Mathlib.Analysis.SpecificLimits.Basic
import Mathlib.Analysis.Real.Pi.Bounds

/-! The solver of Kepler's equation for small eccentricities: how far its result is from a solution. -/

namespace Posidonius.Tools
open Posidonius

/-! ### Sine and cosine -/

theorem cos_defect_nonneg (h : ℝ) : 0 ≤ Real.cos h - 1 + h ^ 2 / 2 := by
  have := Real.one_sub_sq_div_two_le_cos (x := h)
  linarith

theorem cos_defect_le {h : ℝ} (hh : |h| ≤ 2) : Real.cos h - 1 + h ^ 2 / 2 ≤ h ^ 4 / 24 := by
  wlog h0 : 0 ≤ h with H
  · have := @H (-h) (by rwa [abs_neg]) (by linarith)
    rw [Real.cos_neg] at this
    have e1 : (-h) ^ 2 = h ^ 2 := by ring
    have e2 : (-h) ^ 4 = h ^ 4 := by ring
    rwa [e1, e2] at this
  rw [abs_of_nonneg h0] at hh
  have hs := Real.sin_ge_sub_cube (x := h / 2) (by linarith)
  have hc : Real.cos h = 1 - 2 * Real.sin (h / 2) ^ 2 := by
    have := Real.cos_two_mul (h / 2)
    rw [show 2 * (h / 2) = h by ring] at this
    rw [this, Real.cos_sq']
    ring
  have hp : 0 ≤ h / 2 - (h / 2) ^ 3 / 6 := by nlinarith [mul_nonneg h0 (by nlinarith : 0 ≤ 24 - h ^ 2)]
  have hq : (h / 2 - (h / 2) ^ 3 / 6) ^ 2 ≤ Real.sin (h / 2) ^ 2 := pow_le_pow_left₀ hp hs 2
  rw [hc]
  nlinarith [sq_nonneg (h ^ 3)]

/-- Taylor's formula of second order. -/
theorem sin_add_two (u h : ℝ) (hh : |h| ≤ 2) :
    |Real.sin (u + h) - (Real.sin u + h * Real.cos u - h ^ 2 / 2 * Real.sin u)| ≤ |h| ^ 3 / 6 + h ^ 4 / 24 := by
  have e : Real.sin (u + h) - (Real.sin u + h * Real.cos u - h ^ 2 / 2 * Real.sin u)
      = Real.sin u * (Real.cos h - 1 + h ^ 2 / 2) - Real.cos u * (h - Real.sin h) := by
    rw [Real.sin_add]; ring
  rw [e]
  have a1 := Real.abs_sub_sin_le h
  have a2 : |Real.cos h - 1 + h ^ 2 / 2| ≤ h ^ 4 / 24 := by
    rw [abs_of_nonneg (cos_defect_nonneg h)]; exact cos_defect_le hh
  calc |Real.sin u * (Real.cos h - 1 + h ^ 2 / 2) - Real.cos u * (h - Real.sin h)|
      ≤ |Real.sin u * (Real.cos h - 1 + h ^ 2 / 2)| + |Real.cos u * (h - Real.sin h)| := abs_sub _ _
    _ = |Real.sin u| * |Real.cos h - 1 + h ^ 2 / 2| + |Real.cos u| * |h - Real.sin h| := by rw [abs_mul, abs_mul]
    _ ≤ 1 * (h ^ 4 / 24) + 1 * (|h| ^ 3 / 6) := by
        gcongr
        · exact Real.abs_sin_le_one u
        · exact Real.abs_cos_le_one u
    _ = _ := by ring

/-- Taylor's formula of third order. -/
theorem sin_add_three (u h : ℝ) (hh : |h| ≤ 1) :
    |Real.sin (u + h) - (Real.sin u + h * Real.cos u - h ^ 2 / 2 * Real.sin u - h ^ 3 / 6 * Real.cos u)|
      ≤ |h| ^ 4 / 24 + |h| ^ 5 / 100 := by
  have e : Real.sin (u + h) - (Real.sin u + h * Real.cos u - h ^ 2 / 2 * Real.sin u - h ^ 3 / 6 * Real.cos u)
      = Real.sin u * (Real.cos h - 1 + h ^ 2 / 2) + Real.cos u * (Real.sin h - (h - h ^ 3 / 6)) := by
    rw [Real.sin_add]; ring
  rw [e]
  have a1 := Real.sin_bound hh
  have a2 : |Real.cos h - 1 + h ^ 2 / 2| ≤ |h| ^ 4 / 24 := by
    rw [abs_of_nonneg (cos_defect_nonneg h), Even.pow_abs (by decide)]; exact cos_defect_le (by linarith)
  calc |Real.sin u * (Real.cos h - 1 + h ^ 2 / 2) + Real.cos u * (Real.sin h - (h - h ^ 3 / 6))|
      ≤ |Real.sin u * (Real.cos h - 1 + h ^ 2 / 2)| + |Real.cos u * (Real.sin h - (h - h ^ 3 / 6))| := abs_add_le _ _
    _ = |Real.sin u| * |Real.cos h - 1 + h ^ 2 / 2| + |Real.cos u| * |Real.sin h - (h - h ^ 3 / 6)| := by
        rw [abs_mul, abs_mul]
    _ ≤ 1 * (|h| ^ 4 / 24) + 1 * (|h| ^ 5 / 100) := by
        gcongr
        · exact Real.abs_sin_le_one u
        · exact Real.abs_cos_le_one u
    _ = _ := by ring

/-- The rest of a series bounded by a geometric one. -/
theorem rest_bound {f : ℕ → ℝ} {a C q : ℝ} (h : HasSum f a) (N : ℕ) (hq : 0 ≤ q) (hq1 : q < 1)
    (hf : ∀ n, |f (n + N)| ≤ C * q ^ n) : |a - ∑ n ∈ Finset.range N, f n| ≤ C / (1 - q) := by
  have h1 : HasSum (fun n => f (n + N)) (a - ∑ n ∈ Finset.range N, f n) := (hasSum_nat_add_iff' N).2 h
  have h2 : HasSum (fun n => C * q ^ n) (C * (1 - q)⁻¹) := (hasSum_geometric_of_lt_one hq hq1).mul_left C
  have := tsum_of_norm_bounded (f := fun n => f (n + N)) h2 (fun n => by rw [Real.norm_eq_abs]; exact hf n)
  rw [h1.tsum_eq, Real.norm_eq_abs] at this
  rw [div_eq_mul_inv]
  exact this

theorem seriesSS_error {x : ℝ} (hx : |x| ≤ 4 / 5) : |seriesSS x - (x - Real.sin x)| ≤ 1 / 10 ^ 16 := by
  have e : seriesSS x = x - ∑ n ∈ Finset.range 9, (-1) ^ n * x ^ (2 * n + 1) / (2 * n + 1).factorial := by
    simp [seriesSS, Finset.sum_range_succ, Nat.factorial]
    ring
  have hx2 : x ^ 2 ≤ (4 / 5) ^ 2 := by
    rw [← sq_abs x]
    exact pow_le_pow_left₀ (abs_nonneg _) hx 2
  have b := rest_bound (C := 1 / (19 : ℕ).factorial) (q := 16 / 25) (Real.hasSum_sin x) 9 (by norm_num) (by norm_num) (by
    intro n
    rw [abs_div, abs_mul, abs_pow, abs_neg, abs_one, one_pow, one_mul, abs_pow, Nat.abs_cast]
    have h1 : |x| ^ (2 * (n + 9) + 1) ≤ (16 / 25) ^ n := by
      calc |x| ^ (2 * (n + 9) + 1) = (x ^ 2) ^ n * |x| ^ 19 := by rw [← sq_abs x]; ring
        _ ≤ ((4 / 5) ^ 2) ^ n * 1 := by
            gcongr
            exact pow_le_one₀ (abs_nonneg _) (by linarith)
        _ = (16 / 25) ^ n := by norm_num
    have h2 : ((19 : ℕ).factorial : ℝ) ≤ ((2 * (n + 9) + 1).factorial : ℝ) := by
      exact_mod_cast Nat.factorial_le (by omega)
    rw [div_mul_eq_mul_div, one_mul]
    have h3 : (0 : ℝ) < ((19 : ℕ).factorial : ℝ) := by positivity
    exact div_le_div₀ (by positivity) h1 h3 h2)
  rw [e, show x - ∑ n ∈ Finset.range 9, (-1) ^ n * x ^ (2 * n + 1) / ((2 * n + 1).factorial : ℝ) - (x - Real.sin x)
    = Real.sin x - ∑ n ∈ Finset.range 9, (-1) ^ n * x ^ (2 * n + 1) / ((2 * n + 1).factorial : ℝ) by ring]
  refine b.trans ?_
  norm_num [Nat.factorial]

theorem seriesCC_error {x : ℝ} (hx : |x| ≤ 4 / 5) : |seriesCC x - (1 - Real.cos x)| ≤ 1 / 10 ^ 16 := by
  have e : seriesCC x = 1 - ∑ n ∈ Finset.range 10, (-1) ^ n * x ^ (2 * n) / (2 * n).factorial := by
    simp [seriesCC, Finset.sum_range_succ, Nat.factorial]
    ring
  have hx2 : x ^ 2 ≤ (4 / 5) ^ 2 := by
    rw [← sq_abs x]
    exact pow_le_pow_left₀ (abs_nonneg _) hx 2
  have b := rest_bound (C := 1 / (20 : ℕ).factorial) (q := 16 / 25) (Real.hasSum_cos x) 10 (by norm_num) (by norm_num) (by
    intro n
    rw [abs_div, abs_mul, abs_pow, abs_neg, abs_one, one_pow, one_mul, abs_pow, Nat.abs_cast]
    have h1 : |x| ^ (2 * (n + 10)) ≤ (16 / 25) ^ n := by
      calc |x| ^ (2 * (n + 10)) = (x ^ 2) ^ n * |x| ^ 20 := by rw [← sq_abs x]; ring
        _ ≤ ((4 / 5) ^ 2) ^ n * 1 := by
            gcongr
            exact pow_le_one₀ (abs_nonneg _) (by linarith)
        _ = (16 / 25) ^ n := by norm_num
    have h2 : ((20 : ℕ).factorial : ℝ) ≤ ((2 * (n + 10)).factorial : ℝ) := by
      exact_mod_cast Nat.factorial_le (by omega)
    rw [div_mul_eq_mul_div, one_mul]
    have h3 : (0 : ℝ) < ((20 : ℕ).factorial : ℝ) := by positivity
    exact div_le_div₀ (by positivity) h1 h3 h2)
  rw [e, show 1 - ∑ n ∈ Finset.range 10, (-1) ^ n * x ^ (2 * n) / ((2 * n).factorial : ℝ) - (1 - Real.cos x)
    = Real.cos x - ∑ n ∈ Finset.range 10, (-1) ^ n * x ^ (2 * n) / ((2 * n).factorial : ℝ) by ring]
  refine b.trans ?_
  norm_num [Nat.factorial]

private theorem pi_re : (pi : ℝ) = Real.pi := rfl

/-- The defects of sine and cosine that the last step uses. -/
theorem sinCosDefects_error {u : ℝ} (h0 : -(4 / 5) ≤ u) (h1 : u ≤ Real.pi + 4 / 5) :
    |(sinCosDefects u).1 - (u - Real.sin u)| ≤ 1 / 10 ^ 16
      ∧ |(sinCosDefects u).2 - (1 - Real.cos u)| ≤ 1 / 10 ^ 16 := by
  have hpi := Real.pi_lt_d2
  have hpi' := Real.pi_gt_d2
  -- up to a right angle
  have quarter : ∀ z : ℝ, -(4 / 5) ≤ z → z ≤ 1 / 2 * Real.pi →
      let p := if ltb (lit (1 / 2) * (lit (1 / 2) * pi)) z then
          (seriesCC (lit (1 / 2) * pi - z) + z - lit 1, seriesSS (lit (1 / 2) * pi - z) + z + lit 1 - lit (1 / 2) * pi)
        else (seriesSS z, seriesCC z)
      |p.1 - (z - Real.sin z)| ≤ 1 / 10 ^ 16 ∧ |p.2 - (1 - Real.cos z)| ≤ 1 / 10 ^ 16 := by
    intro z z0 z1
    have l2 : (lit (1 / 2) : ℝ) = 1 / 2 := by simp
    have l1 : (lit 1 : ℝ) = 1 := by simp
    simp only [ltb_real, pi_re, l2, l1]
    split
    · rename_i hb
      have hx : |1 / 2 * Real.pi - z| ≤ 4 / 5 := by rw [abs_le]; constructor <;> linarith
      have e1 := seriesCC_error hx
      have e2 := seriesSS_error hx
      rw [show 1 / 2 * Real.pi - z = Real.pi / 2 - z by ring] at e1 e2 ⊢
      rw [Real.cos_pi_div_two_sub] at e1
      rw [Real.sin_pi_div_two_sub] at e2
      refine ⟨?_, ?_⟩
      · convert e1 using 2; ring
      · convert e2 using 2; ring
    · rename_i hb
      have hx : |z| ≤ 4 / 5 := by rw [abs_le]; constructor <;> linarith
      exact ⟨seriesSS_error hx, seriesCC_error hx⟩
  unfold sinCosDefects
  have l2 : (lit (1 / 2) : ℝ) = 1 / 2 := by simp
  by_cases hb : (1 : ℝ) / 2 * Real.pi < u
  · have hb' : ltb (lit (1 / 2) * pi) u = true := by
      simp only [ltb_real, pi_re, l2]; exact hb
    have q := quarter (Real.pi - u) (by linarith) (by linarith)
    simp only [hb', if_true]
    rw [Real.sin_pi_sub, Real.cos_pi_sub] at q
    rw [← pi_re] at q
    dsimp only at q
    have l22 : (lit 2 : ℝ) = 2 := by simp
    split <;> rename_i hx <;> simp only [hx, if_true, if_false, Bool.false_eq_true] at q ⊢ <;>
      simp only [l22] <;> obtain ⟨q1, q2⟩ := q <;> refine ⟨?_, ?_⟩
    · convert q1 using 2; ring
    · rw [abs_sub_comm]; convert q2 using 2; ring
    · convert q1 using 2; ring
    · rw [abs_sub_comm]; convert q2 using 2; ring
  · have hb' : ¬ ltb (lit (1 / 2) * pi) u = true := by
      simp only [ltb_real, pi_re, l2]; exact hb
    have q := quarter u h0 (by linarith)
    simp only [hb', if_false, Bool.false_eq_true]
    dsimp only at q
    split <;> rename_i hx <;> simp only [hx, if_true, if_false, Bool.false_eq_true] at q ⊢ <;> exact q

/-! ### The last step -/

private theorem quotient_bound {x y f φ : ℝ} (h : x * y = f) (hf : |f| ≤ φ) (hy : 89 / 100 ≤ y) : |x| ≤ 9 / 8 * φ := by
  have h1 : |x| * y = |f| := by rw [← h, abs_mul, abs_of_pos (by linarith : 0 < y)]
  nlinarith [abs_nonneg x]

private theorem quotient_bound' {x y f φ : ℝ} (h : x * y = f) (hf : |f| ≤ φ) (hy : 89 / 100 ≤ y) :
    |x| * (89 / 100) ≤ φ := by
  have h1 : |x| * y = |f| := by rw [← h, abs_mul, abs_of_pos (by linarith : 0 < y)]
  nlinarith [abs_nonneg x]

private theorem abs_mul_le {x y A B : ℝ} (hx : |x| ≤ A) (hy : |y| ≤ B) : |x * y| ≤ A * B := by
  rw [abs_mul]
  exact mul_le_mul hx hy (abs_nonneg _) ((abs_nonneg _).trans hx)

/-- The error of the last step in terms of the error before it. -/
theorem finish_bound {e l u s c φ f0 f1 f2 f3 a b δ : ℝ} (he : 0 ≤ e) (he1 : e ≤ 1 / 10) (hφ : φ ≤ 3 / 50)
    (hs : |s - Real.sin u| ≤ 1 / 10 ^ 16) (hc : |c - Real.cos u| ≤ 1 / 10 ^ 16) (h0 : |f0| ≤ φ)
    (hf0 : f0 = l - u + e * s) (hf1 : f1 = 1 - e * c) (hf2 : f2 = 1 / 2 * e * s) (hf3 : f3 = e / 6 * c)
    (ha0 : a = f0 / f1) (hb0 : b = f0 / (f2 * a + f1)) (hδ0 : δ = f0 / ((f3 * a + f2) * b + f1)) :
    |u + δ - e * Real.sin (u + δ) - l| ≤ 11 / 100 * e * φ ^ 4 + e * (2 / 10 ^ 16) := by
  have hφ0 : 0 ≤ φ := (abs_nonneg _).trans h0
  have hs1 : |s| ≤ 101 / 100 := by
    have := Real.abs_sin_le_one u
    have h2 := abs_sub_abs_le_abs_sub s (Real.sin u)
    linarith
  have hc1 : |c| ≤ 101 / 100 := by
    have := Real.abs_cos_le_one u
    have h2 := abs_sub_abs_le_abs_sub c (Real.cos u)
    linarith
  have f2b : |f2| ≤ 51 / 100 * e := by
    rw [hf2, abs_mul, abs_of_nonneg (by linarith : (0 : ℝ) ≤ 1 / 2 * e)]
    nlinarith
  have f3b : |f3| ≤ 17 / 100 * e := by
    rw [hf3, abs_mul, abs_of_nonneg (by linarith : (0 : ℝ) ≤ e / 6)]
    nlinarith
  have ec : |e * c| ≤ 1 / 10 * (101 / 100) := abs_mul_le (by rwa [abs_of_nonneg he]) hc1
  have f1b : 898 / 1000 ≤ f1 := by have := (abs_le.1 ec).2; linarith
  have ha : a * f1 = f0 := by
    rw [ha0]; exact div_mul_cancel₀ _ (by linarith)
  have ab := quotient_bound ha h0 (by linarith)
  have d1 : |f2 * a| ≤ 51 / 100 * e * (9 / 8 * φ) := abs_mul_le f2b ab
  have eφ : e * φ ≤ 1 / 10 * (3 / 50) := mul_le_mul he1 hφ hφ0 (by norm_num)
  have hD' : 89 / 100 ≤ f2 * a + f1 := by have := (abs_le.1 d1).1; linarith
  have hb : b * (f2 * a + f1) = f0 := by
    have h : f2 * a + f1 ≠ 0 := by linarith
    rw [hb0]; exact div_mul_cancel₀ _ h
  have bb := quotient_bound hb h0 hD'
  have d2 : |f3 * a| ≤ 17 / 100 * e * (9 / 8 * φ) := abs_mul_le f3b ab
  have d3 : |f3 * a + f2| ≤ 53 / 100 * e := by
    refine (abs_add_le _ _).trans ?_
    have e1 : e * φ ≤ e * (3 / 50) := mul_le_mul_of_nonneg_left hφ he
    linarith
  have d4 : |(f3 * a + f2) * b| ≤ 53 / 100 * e * (9 / 8 * φ) := abs_mul_le d3 bb
  have hD : 89 / 100 ≤ (f3 * a + f2) * b + f1 := by have := (abs_le.1 d4).1; linarith
  have hδ : δ * ((f3 * a + f2) * b + f1) = f0 := by
    have h : (f3 * a + f2) * b + f1 ≠ 0 := by linarith
    rw [hδ0]; exact div_mul_cancel₀ _ h
  have δb := quotient_bound hδ h0 hD
  have hab : |a - b| ≤ 3 / 4 * e * φ ^ 2 := by
    have e1 : (a - b) * f1 = f2 * a * b := by linear_combination ha - hb
    have := quotient_bound' e1 (abs_mul_le d1 bb) (by linarith)
    linarith [mul_nonneg he (sq_nonneg φ)]
  have hDD : |f2 * (a - b) - f3 * a * b| ≤ 26 / 100 * e * φ ^ 2 := by
    refine (abs_sub _ _).trans ?_
    have e1 := abs_mul_le f2b hab
    have e2 := abs_mul_le d2 bb
    have e3 : e * (e * φ ^ 2) ≤ 1 / 10 * (e * φ ^ 2) := mul_le_mul_of_nonneg_right he1 (by positivity)
    linarith [mul_nonneg he (sq_nonneg φ)]
  have hδb : |δ - b| ≤ 1 / 3 * e * φ ^ 3 := by
    have e1 : (δ - b) * (f2 * a + f1) = δ * (f2 * (a - b) - f3 * a * b) := by linear_combination hδ - hb
    have := quotient_bound' e1 (abs_mul_le δb hDD) hD'
    linarith [mul_nonneg he (pow_nonneg hφ0 3)]
  have hsq : |δ ^ 2 - a * b| ≤ 9 / 10 * e * φ ^ 3 := by
    have e0 : δ ^ 2 - a * b = (δ + b) * (δ - b) - b * (a - b) := by ring
    rw [e0]
    refine (abs_sub _ _).trans ?_
    have e1 : |δ + b| ≤ 9 / 4 * φ := (abs_add_le _ _).trans (by linarith)
    have e2 := abs_mul_le e1 hδb
    have e3 := abs_mul_le bb hab
    have e4 : φ * (e * φ ^ 3) ≤ 3 / 50 * (e * φ ^ 3) := mul_le_mul_of_nonneg_right hφ (by positivity)
    linarith [mul_nonneg he (pow_nonneg hφ0 3)]
  have hbr : |f2 * (δ - b) + f3 * (δ ^ 2 - a * b)| ≤ 33 / 1000 * e * φ ^ 3 := by
    refine (abs_add_le _ _).trans ?_
    have e1 := abs_mul_le f2b hδb
    have e2 := abs_mul_le f3b hsq
    have e3 : e * (e * φ ^ 3) ≤ 1 / 10 * (e * φ ^ 3) := mul_le_mul_of_nonneg_right he1 (by positivity)
    linarith [mul_nonneg he (pow_nonneg hφ0 3)]
  have hmain := abs_mul_le δb hbr
  have δ1 : |δ| ≤ 7 / 100 := by linarith
  have ht := sin_add_three u δ (by linarith)
  set T := Real.sin (u + δ) - (Real.sin u + δ * Real.cos u - δ ^ 2 / 2 * Real.sin u - δ ^ 3 / 6 * Real.cos u) with hT
  have hR : u + δ - e * Real.sin (u + δ) - l = δ * (f2 * (δ - b) + f3 * (δ ^ 2 - a * b))
      - e * (T - (s - Real.sin u) * (1 - δ ^ 2 / 2) - (c - Real.cos u) * (δ - δ ^ 3 / 6)) := by
    have e1 : δ * f1 = f0 - δ * ((f3 * a + f2) * b) := by linear_combination hδ
    rw [hT]
    linear_combination e1 + hf0 - δ * hf1 - δ ^ 2 * hf2 - δ ^ 3 * hf3
  have q1 : |(s - Real.sin u) * (1 - δ ^ 2 / 2)| ≤ 1 / 10 ^ 16 * 1 := by
    refine abs_mul_le hs ?_
    have := pow_le_pow_left₀ (abs_nonneg _) δ1 2
    rw [sq_abs] at this
    rw [abs_le]; constructor <;> linarith [sq_nonneg δ]
  have q2 : |(c - Real.cos u) * (δ - δ ^ 3 / 6)| ≤ 1 / 10 ^ 16 * (1 / 2) := by
    refine abs_mul_le hc ?_
    refine (abs_sub _ _).trans ?_
    rw [abs_div, abs_pow]
    have : |δ| ^ 3 ≤ (7 / 100) ^ 3 := pow_le_pow_left₀ (abs_nonneg _) δ1 3
    norm_num at this ⊢
    linarith
  have q3 : |T| ≤ 69 / 1000 * φ ^ 4 := by
    refine ht.trans ?_
    have k4 : |δ| ^ 4 ≤ (9 / 8 * φ) ^ 4 := pow_le_pow_left₀ (abs_nonneg _) δb 4
    have k5 : |δ| ^ 5 ≤ 7 / 100 * (9 / 8 * φ) ^ 4 := by
      calc |δ| ^ 5 = |δ| * |δ| ^ 4 := by ring
        _ ≤ _ := mul_le_mul δ1 k4 (by positivity) (by norm_num)
    have k6 : (9 / 8 * φ) ^ 4 = 6561 / 4096 * φ ^ 4 := by ring
    rw [k6] at k4 k5
    have : 0 ≤ φ ^ 4 := by positivity
    linarith
  have q4 : |T - (s - Real.sin u) * (1 - δ ^ 2 / 2) - (c - Real.cos u) * (δ - δ ^ 3 / 6)|
      ≤ 69 / 1000 * φ ^ 4 + 2 / 10 ^ 16 := by
    refine (abs_sub _ _).trans ?_
    have := abs_sub T ((s - Real.sin u) * (1 - δ ^ 2 / 2))
    linarith
  rw [hR]
  refine (abs_sub _ _).trans ?_
  have q5 := abs_mul_le (le_of_eq (abs_of_nonneg he)) q4
  have : 0 ≤ e * φ ^ 4 := by positivity
  linarith

/-! ### The starting value -/

theorem sin_five {x : ℝ} (h0 : 0 ≤ x) (h1 : x ≤ 8 / 5) :
    |x * (1 + x * x * (-0.16605 + x * x * 0.00761)) - Real.sin x| ≤ 16 / 1000 := by
  have b := rest_bound (C := 6 / 1000 * (9 / 10)) (q := 1 / 25) (Real.hasSum_sin x) 3 (by norm_num) (by norm_num) (by
    intro n
    rw [abs_div, abs_mul, abs_pow, abs_neg, abs_one, one_pow, one_mul, abs_of_nonneg (pow_nonneg h0 _), Nat.abs_cast,
      div_le_iff₀ (by positivity)]
    have h2 : ((7 : ℕ).factorial * 8 ^ (2 * n) : ℝ) ≤ ((2 * (n + 3) + 1).factorial : ℝ) := by
      have := Nat.factorial_mul_pow_le_factorial (m := 7) (n := 2 * n)
      rw [show 2 * (n + 3) + 1 = 7 + 2 * n by ring]
      exact_mod_cast this
    calc x ^ (2 * (n + 3) + 1) ≤ (8 / 5) ^ (2 * (n + 3) + 1) := pow_le_pow_left₀ h0 h1 _
      _ = (8 / 5) ^ 7 * (64 / 25) ^ n := by rw [show 2 * (n + 3) + 1 = 7 + 2 * n by ring, pow_add, pow_mul]; norm_num
      _ ≤ 6 / 1000 * (9 / 10) * ((7 : ℕ).factorial : ℝ) * (64 / 25) ^ n := by
          gcongr
          norm_num [Nat.factorial]
      _ = 6 / 1000 * (9 / 10) * (1 / 25) ^ n * ((7 : ℕ).factorial * 8 ^ (2 * n)) := by
          rw [pow_mul, show (64 / 25 : ℝ) = 1 / 25 * 8 ^ 2 by norm_num, mul_pow]; ring
      _ ≤ _ := by gcongr)
  rw [abs_le] at b ⊢
  simp only [Finset.sum_range_succ, Finset.sum_range_zero, Nat.factorial] at b
  norm_num at b
  have x3 : x ^ 3 ≤ (8 / 5) ^ 3 := pow_le_pow_left₀ h0 h1 3
  have x5 : x ^ 5 ≤ (8 / 5) ^ 5 := pow_le_pow_left₀ h0 h1 5
  have y3 : 0 ≤ x ^ 3 := by positivity
  have y5 : 0 ≤ x ^ 5 := by positivity
  have e : x * (1 + x * x * (-0.16605 + x * x * 0.00761)) = x - 0.16605 * x ^ 3 + 0.00761 * x ^ 5 := by ring
  rw [e]
  norm_num at x3 x5 ⊢
  constructor <;> linarith [b.1, b.2]

theorem cos_four {x : ℝ} (h0 : 0 ≤ x) (h1 : x ≤ 8 / 5) :
    |1 + x * x * (-0.49815 + x * x * 0.03805) - Real.cos x| ≤ 53 / 1000 := by
  have b := rest_bound (C := 234 / 10000) (q := 64 / 1225) (Real.hasSum_cos x) 3 (by norm_num) (by norm_num) (by
    intro n
    rw [abs_div, abs_mul, abs_pow, abs_neg, abs_one, one_pow, one_mul, abs_of_nonneg (pow_nonneg h0 _), Nat.abs_cast,
      div_le_iff₀ (by positivity)]
    have h2 : ((6 : ℕ).factorial * 7 ^ (2 * n) : ℝ) ≤ ((2 * (n + 3)).factorial : ℝ) := by
      have := Nat.factorial_mul_pow_le_factorial (m := 6) (n := 2 * n)
      rw [show 2 * (n + 3) = 6 + 2 * n by ring]
      exact_mod_cast this
    calc x ^ (2 * (n + 3)) ≤ (8 / 5) ^ (2 * (n + 3)) := pow_le_pow_left₀ h0 h1 _
      _ = (8 / 5) ^ 6 * (64 / 25) ^ n := by rw [show 2 * (n + 3) = 6 + 2 * n by ring, pow_add, pow_mul]; norm_num
      _ ≤ 234 / 10000 * ((6 : ℕ).factorial : ℝ) * (64 / 25) ^ n := by
          gcongr
          norm_num [Nat.factorial]
      _ = 234 / 10000 * (64 / 1225) ^ n * ((6 : ℕ).factorial * 7 ^ (2 * n)) := by
          rw [pow_mul, show (64 / 25 : ℝ) = 64 / 1225 * 7 ^ 2 by norm_num, mul_pow]; ring
      _ ≤ _ := by gcongr)
  rw [abs_le] at b ⊢
  simp only [Finset.sum_range_succ, Finset.sum_range_zero, Nat.factorial] at b
  norm_num at b
  have x3 : x ^ 2 ≤ (8 / 5) ^ 2 := pow_le_pow_left₀ h0 h1 2
  have x5 : x ^ 4 ≤ (8 / 5) ^ 4 := pow_le_pow_left₀ h0 h1 4
  have y3 : 0 ≤ x ^ 2 := by positivity
  have y5 : 0 ≤ x ^ 4 := by positivity
  have e : 1 + x * x * (-0.49815 + x * x * 0.03805) = 1 - 0.49815 * x ^ 2 + 0.03805 * x ^ 4 := by ring
  rw [e]
  norm_num at x3 x5 ⊢
  constructor <;> linarith [b.1, b.2]

/-- The step of the starting value. -/
theorem start_bound {e l u1 sn dsn f0 f1 f2 d : ℝ} (he : 0 ≤ e) (he1 : e ≤ 1 / 10)
    (hs : |sn - Real.sin u1| ≤ 16 / 1000) (hc : |dsn - Real.cos u1| ≤ 53 / 1000) (h0 : |f0| ≤ 1)
    (hf0 : f0 = u1 - e * sn - l) (hf1 : f1 = 1 - e * dsn) (hf2 : f2 = e * sn)
    (hd0 : d = -(f0 / (f1 - 1 / 2 * f0 * f2 / f1))) :
    |d| ≤ 121 / 100 * |f0| ∧ |u1 + d - e * Real.sin (u1 + d) - l| ≤ 59 / 100 * e := by
  have hs1 : |sn| ≤ 102 / 100 := by
    have := Real.abs_sin_le_one u1
    have h2 := abs_sub_abs_le_abs_sub sn (Real.sin u1)
    linarith
  have hc1 : |dsn| ≤ 106 / 100 := by
    have := Real.abs_cos_le_one u1
    have h2 := abs_sub_abs_le_abs_sub dsn (Real.cos u1)
    linarith
  have ec : |e * dsn| ≤ 1 / 10 * (106 / 100) := abs_mul_le (by rwa [abs_of_nonneg he]) hc1
  have f1b : 89 / 100 ≤ f1 := by have := (abs_le.1 ec).2; linarith
  have f2b : |f2| ≤ e * (102 / 100) := by
    rw [hf2]; exact abs_mul_le (le_of_eq (abs_of_nonneg he)) hs1
  obtain ⟨g, hg⟩ : ∃ g, g * f1 = f0 := ⟨f0 / f1, div_mul_cancel₀ _ (by linarith)⟩
  have gb := quotient_bound hg h0 f1b
  have hgd : 1 / 2 * f0 * f2 / f1 = 1 / 2 * g * f2 := by
    rw [div_eq_iff (by linarith), ← hg]; ring
  have k1 : |g * f2| ≤ 9 / 8 * 1 * (e * (102 / 100)) := abs_mul_le gb f2b
  have hD : 83 / 100 ≤ f1 - 1 / 2 * g * f2 := by have := (abs_le.1 k1).2; linarith
  have hd : d * (f1 - 1 / 2 * g * f2) = -f0 := by
    have h : f1 - 1 / 2 * g * f2 ≠ 0 := by linarith
    rw [hd0, hgd, neg_mul, div_mul_cancel₀ _ h]
  have hd1 : |d| * (83 / 100) ≤ |f0| := by
    have h1 : |d| * (f1 - 1 / 2 * g * f2) = |f0| := by
      rw [← abs_neg f0, ← hd, abs_mul, abs_of_pos (by linarith : 0 < f1 - 1 / 2 * g * f2)]
    nlinarith [abs_nonneg d]
  have db : |d| ≤ 121 / 100 * |f0| := by linarith [abs_nonneg f0]
  refine ⟨db, ?_⟩
  replace db : |d| ≤ 121 / 100 := by linarith
  have ht := sin_add_two u1 d (by linarith)
  set T := Real.sin (u1 + d) - (Real.sin u1 + d * Real.cos u1 - d ^ 2 / 2 * Real.sin u1) with hT
  have hdg : |d + g| ≤ 8 / 10 * e := by
    have e1 : (d + g) * f1 = 1 / 2 * (d * (g * f2)) := by linear_combination hd + hg
    have e2 : |1 / 2 * (d * (g * f2))| ≤ 1 / 2 * (121 / 100 * (9 / 8 * 1 * (e * (102 / 100)))) := by
      rw [abs_mul, abs_of_pos (by norm_num : (0 : ℝ) < 1 / 2)]
      have := abs_mul_le db k1
      linarith
    have := quotient_bound' e1 e2 f1b
    linarith
  have hR : u1 + d - e * Real.sin (u1 + d) - l = 1 / 2 * (d * f2) * (d + g)
      - e * (T - (sn - Real.sin u1) * (1 - d ^ 2 / 2) - (dsn - Real.cos u1) * d) := by
    have e1 : f0 + d * f1 = 1 / 2 * d * g * f2 := by linear_combination hd
    rw [hT]
    linear_combination e1 - hf0 - d * hf1 - d ^ 2 / 2 * hf2
  have q0 : |1 / 2 * (d * f2) * (d + g)| ≤ 1 / 2 * (121 / 100 * (e * (102 / 100))) * (8 / 10 * e) := by
    refine abs_mul_le ?_ hdg
    rw [abs_mul, abs_of_pos (by norm_num : (0 : ℝ) < 1 / 2)]
    have := abs_mul_le db f2b
    linarith
  have d2 : d ^ 2 ≤ (121 / 100) ^ 2 := by
    rw [← sq_abs d]; exact pow_le_pow_left₀ (abs_nonneg _) db 2
  have q1 : |(sn - Real.sin u1) * (1 - d ^ 2 / 2)| ≤ 16 / 1000 * 1 := by
    refine abs_mul_le hs ?_
    rw [abs_le]; norm_num at d2; constructor <;> linarith [sq_nonneg d]
  have q2 : |(dsn - Real.cos u1) * d| ≤ 53 / 1000 * (121 / 100) := abs_mul_le hc db
  have q3 : |T| ≤ 385 / 1000 := by
    refine ht.trans ?_
    have k3 : |d| ^ 3 ≤ (121 / 100) ^ 3 := pow_le_pow_left₀ (abs_nonneg _) db 3
    have k4 : d ^ 4 ≤ (121 / 100) ^ 4 := by
      rw [← Even.pow_abs (by decide : Even 4) d]; exact pow_le_pow_left₀ (abs_nonneg _) db 4
    norm_num at k3 k4
    linarith
  have q4 : |T - (sn - Real.sin u1) * (1 - d ^ 2 / 2) - (dsn - Real.cos u1) * d| ≤ 48 / 100 := by
    refine (abs_sub _ _).trans ?_
    have := abs_sub T ((sn - Real.sin u1) * (1 - d ^ 2 / 2))
    linarith
  rw [hR]
  refine (abs_sub _ _).trans ?_
  have q5 := abs_mul_le (le_of_eq (abs_of_nonneg he)) q4
  have : e * e ≤ 1 / 10 * e := mul_le_mul_of_nonneg_right he1 he
  linarith

/-- The starting value and its error, for a reduced mean anomaly. -/
theorem keplerStart_bound {e l : ℝ} (he : 0 ≤ e) (he1 : e ≤ 1 / 10) (hl : 0 ≤ l) (hl1 : l ≤ Real.pi) :
    -(4 / 5) ≤ keplerStart e l ∧ keplerStart e l ≤ Real.pi + 4 / 5
      ∧ |keplerStart e l - e * Real.sin (keplerStart e l) - l| ≤ 59 / 100 * e := by
  have hpi := Real.pi_lt_d2
  have hpi' := Real.pi_gt_d2
  have hb : (leb (lit 0.45) l || ltb e (lit 0.55)) = true := by
    rw [Bool.or_eq_true]; right
    simp only [ltb_real, lit_real]; norm_num; linarith
  rw [keplerStart, hb]
  simp only [if_true, ltb_real, pi_re, lit_real]
  push_cast
  set u1 : ℝ := if l < 1 - e then 1 - e else if Real.pi - 1 - e < l then (l + e * Real.pi) / (1 + e) else l + e with hu1
  have hr : 9 / 10 ≤ u1 ∧ u1 ≤ Real.pi ∧ ((l < 1 - e ∧ u1 = 1 - e) ∨ (0 ≤ u1 - l ∧ u1 - l ≤ e)) := by
    rw [hu1]
    split
    · rename_i h
      exact ⟨by linarith, by linarith, Or.inl ⟨h, rfl⟩⟩
    · rename_i h
      split
      · rename_i h2
        have p : 0 < 1 + e := by linarith
        have k1 : l ≤ (l + e * Real.pi) / (1 + e) := by rw [le_div_iff₀ p]; nlinarith
        have k2 : (l + e * Real.pi) / (1 + e) ≤ Real.pi := by rw [div_le_iff₀ p]; nlinarith
        have k3 : (l + e * Real.pi) / (1 + e) ≤ l + e := by rw [div_le_iff₀ p]; nlinarith
        exact ⟨by linarith, k2, Or.inr ⟨by linarith, by linarith⟩⟩
      · rename_i h2
        exact ⟨by linarith, by linarith, Or.inr ⟨by linarith, by linarith⟩⟩
  clear_value u1
  obtain ⟨r0, r1, hr⟩ := hr
  obtain ⟨sn, hsn⟩ : ∃ sn, sn = (if 1 / 2 * Real.pi < u1 then Real.pi - u1 else u1) *
      (1 + (if 1 / 2 * Real.pi < u1 then Real.pi - u1 else u1) * (if 1 / 2 * Real.pi < u1 then Real.pi - u1 else u1) *
        (-0.16605 + (if 1 / 2 * Real.pi < u1 then Real.pi - u1 else u1) *
          (if 1 / 2 * Real.pi < u1 then Real.pi - u1 else u1) * 0.00761)) := ⟨_, rfl⟩
  obtain ⟨dsn, hdsn⟩ : ∃ dsn, dsn = (if 1 / 2 * Real.pi < u1 then
      -(1 + (if 1 / 2 * Real.pi < u1 then Real.pi - u1 else u1) * (if 1 / 2 * Real.pi < u1 then Real.pi - u1 else u1) *
        (-0.49815 + (if 1 / 2 * Real.pi < u1 then Real.pi - u1 else u1) *
          (if 1 / 2 * Real.pi < u1 then Real.pi - u1 else u1) * 0.03805))
      else 1 + (if 1 / 2 * Real.pi < u1 then Real.pi - u1 else u1) * (if 1 / 2 * Real.pi < u1 then Real.pi - u1 else u1) *
        (-0.49815 + (if 1 / 2 * Real.pi < u1 then Real.pi - u1 else u1) *
          (if 1 / 2 * Real.pi < u1 then Real.pi - u1 else u1) * 0.03805)) := ⟨_, rfl⟩
  have hs : |sn - Real.sin u1| ≤ 16 / 1000 ∧ |dsn - Real.cos u1| ≤ 53 / 1000 := by
    rw [hsn, hdsn]
    by_cases h : 1 / 2 * Real.pi < u1
    · simp only [h, if_true]
      have s := sin_five (x := Real.pi - u1) (by linarith) (by linarith)
      have c := cos_four (x := Real.pi - u1) (by linarith) (by linarith)
      rw [Real.sin_pi_sub] at s
      rw [Real.cos_pi_sub] at c
      refine ⟨s, ?_⟩
      rw [← abs_neg]
      convert c using 2
      ring
    · simp only [h, if_false]
      exact ⟨sin_five (by linarith) (by linarith), cos_four (by linarith) (by linarith)⟩
  have key : |u1 - e * sn - l| ≤ 1 ∧ (l < 1 - e ∧ u1 = 1 - e ∨ |u1 - e * sn - l| ≤ 3 / 10) := by
    have hs1 : |sn| ≤ 102 / 100 := by
      have := Real.abs_sin_le_one u1
      have h2 := abs_sub_abs_le_abs_sub sn (Real.sin u1)
      linarith [hs.1]
    have f2b : |e * sn| ≤ e * (102 / 100) := abs_mul_le (le_of_eq (abs_of_nonneg he)) hs1
    have f2c := abs_le.1 f2b
    rcases hr with ⟨q, qu⟩ | ⟨q0, q1⟩
    · have spos : 0 ≤ sn := by
        have s1 := Real.sin_gt_sub_cube (x := u1) (by linarith)
        have s2 := (abs_le.1 hs.1).1
        have : u1 ^ 3 ≤ 1 := pow_le_one₀ (by linarith) (by linarith)
        linarith
      refine ⟨?_, Or.inl ⟨q, qu⟩⟩
      rw [abs_le]
      constructor
      · linarith
      · nlinarith [mul_nonneg he spos]
    · have : |u1 - e * sn - l| ≤ 3 / 10 := by rw [abs_le]; constructor <;> linarith [f2c.1, f2c.2]
      exact ⟨by linarith, Or.inr this⟩
  have hst := start_bound he he1 hs.1 hs.2 key.1 rfl rfl rfl rfl
  obtain ⟨hd, hF⟩ := hst
  rw [← hsn, ← hdsn]
  rw [sub_eq_add_neg u1 (_ / _)]
  refine ⟨?_, ?_, hF⟩
  · have := (abs_le.1 hd).1
    linarith [key.1]
  · have := (abs_le.1 hd).2
    rcases key.2 with ⟨-, q⟩ | q
    · linarith [key.1]
    · linarith

/-- The whole solution for a reduced mean anomaly. -/
theorem kepler_reduced {e l : ℝ} (he : 0 ≤ e) (he1 : e ≤ 1 / 10) (hl : 0 ≤ l) (hl1 : l ≤ Real.pi) :
    |keplerFinish e l (keplerStart e l) - e * Real.sin (keplerFinish e l (keplerStart e l)) - l|
      ≤ e ^ 5 / 50 + e * (2 / 10 ^ 16) := by
  obtain ⟨h0, h1, hF⟩ := keplerStart_bound he he1 hl hl1
  generalize keplerStart e l = u at *
  obtain ⟨d1, d2⟩ := sinCosDefects_error h0 h1
  unfold keplerFinish
  generalize sinCosDefects u = z at *
  obtain ⟨z1, z2⟩ := z
  dsimp only at d1 d2 ⊢
  have hs : |(u - z1) - Real.sin u| ≤ 1 / 10 ^ 16 := by
    rw [abs_sub_comm]; convert d1 using 2; ring
  have hc : |(1 - z2) - Real.cos u| ≤ 1 / 10 ^ 16 := by
    rw [abs_sub_comm]; convert d2 using 2; ring
  have hf : |l - u + e * (u - z1)| ≤ 3 / 5 * e := by
    have e1 : l - u + e * (u - z1) = -(u - e * Real.sin u - l) + e * ((u - z1) - Real.sin u) := by ring
    rw [e1]
    refine (abs_add_le _ _).trans ?_
    rw [abs_neg]
    have := abs_mul_le (le_of_eq (abs_of_nonneg he)) hs
    linarith
  have k := finish_bound he he1 (by linarith) hs hc hf rfl rfl rfl rfl rfl rfl rfl
  simp only [lit_real]
  push_cast
  rw [show l - u * (1 - e) - e * z1 = l - u + e * (u - z1) by ring,
    show 1 - e + e * z2 = 1 - e * (1 - z2) by ring]
  refine k.trans ?_
  have : 0 ≤ e ^ 5 := by positivity
  nlinarith

end Posidonius.Tools
