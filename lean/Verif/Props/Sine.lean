import Verif.Model.Sine
import Verif.Props.Tools

/-! # C140: sine and cosine of a reduced angle -/

namespace Posidonius.Tools
open Posidonius

theorem root_sine (x : ℝ) : √(1 - Real.cos x * Real.cos x) = |Real.sin x| := by
  rw [← Real.sqrt_sq_eq_abs]
  congr 1
  nlinarith [Real.sin_sq_add_cos_sq x]

/-- What is returned, in ordinary terms. -/
theorem mcoSine_eq (x0 : ℝ) :
    mcoSine x0 = ((if 0 < x0 then modulus x0 (2 * Real.pi) else modulus x0 (4 * Real.pi)),
      (if Real.pi < (if 0 < x0 then modulus x0 (2 * Real.pi) else modulus x0 (4 * Real.pi))
        then -|Real.sin (mcoSine x0).1| else |Real.sin (mcoSine x0).1|), Real.cos (mcoSine x0).1) := by
  have e : (2 * Real.pi + 2 * Real.pi) = 4 * Real.pi := by ring
  simp only [mcoSine, ltb_real, lit_real, Rat.cast_zero, Rat.cast_one, twoPi_real, pi_real', sqrt_real, cos_real, root_sine, e]

/-- **C140**: the reduced angle is the given one up to whole turns, between 0 and one turn for a positive angle and between 0 and
two turns otherwise. -/
theorem C140_angle (x0 : ℝ) : (∃ k : ℤ, (mcoSine x0).1 = x0 + k * (2 * Real.pi)) ∧ 0 ≤ (mcoSine x0).1
    ∧ (mcoSine x0).1 < (if 0 < x0 then 2 * Real.pi else 4 * Real.pi) := by
  have hp := Real.pi_pos
  rw [mcoSine_eq]
  dsimp only
  split
  · obtain ⟨h1, h2, k, hk⟩ := C31_modulus x0 (2 * Real.pi) (by positivity)
    exact ⟨⟨-k, by push_cast; linarith⟩, h1, h2⟩
  · obtain ⟨h1, h2, k, hk⟩ := C31_modulus x0 (4 * Real.pi) (by positivity)
    exact ⟨⟨-(2 * k), by push_cast; linarith⟩, h1, h2⟩

/-- **C140**: the third number is the cosine of the given angle. -/
theorem C140_cosine (x0 : ℝ) : (mcoSine x0).2.2 = Real.cos x0 := by
  obtain ⟨⟨k, hk⟩, -, -⟩ := C140_angle x0
  rw [mcoSine_eq]
  dsimp only
  rw [hk, Real.cos_add_int_mul_two_pi]

/-- **C140**: the second number is the sine of the given angle, or the opposite if the reduced angle is in the third half turn. -/
theorem C140_exactly (x0 : ℝ) : (mcoSine x0).2.1
    = if 2 * Real.pi < (mcoSine x0).1 ∧ (mcoSine x0).1 < 3 * Real.pi then -Real.sin x0 else Real.sin x0 := by
  have hp := Real.pi_pos
  obtain ⟨⟨k, hk⟩, h0, h4⟩ := C140_angle x0
  have hs : Real.sin (mcoSine x0).1 = Real.sin x0 := by rw [hk, Real.sin_add_int_mul_two_pi]
  have h4' : (mcoSine x0).1 < 4 * Real.pi := by
    refine lt_of_lt_of_le h4 ?_
    split <;> linarith
  have e : (mcoSine x0).2.1 = if Real.pi < (mcoSine x0).1 then -|Real.sin (mcoSine x0).1| else |Real.sin (mcoSine x0).1| := by
    simp only [mcoSine, ltb_real, lit_real, Rat.cast_one, pi_real', sqrt_real, cos_real, root_sine]
  rw [e, ← hs]
  generalize (mcoSine x0).1 = x at *
  have turn : Real.sin x = Real.sin (x - 2 * Real.pi) := (Real.sin_sub_two_pi x).symm
  by_cases c1 : Real.pi < x
  · rw [if_pos c1]
    by_cases c2 : x ≤ 2 * Real.pi
    · rw [if_neg (by intro h; linarith [h.1]), turn, abs_of_nonpos (Real.sin_nonpos_of_nonpos_of_neg_pi_le (by linarith)
        (by linarith)), neg_neg]
    · by_cases c3 : x < 3 * Real.pi
      · rw [if_pos ⟨by linarith, c3⟩, turn, abs_of_nonneg (Real.sin_nonneg_of_nonneg_of_le_pi (by linarith) (by linarith))]
      · have t2 : Real.sin (x - 2 * Real.pi) = Real.sin (x - 2 * Real.pi - 2 * Real.pi) := (Real.sin_sub_two_pi _).symm
        rw [if_neg (by intro h; linarith [h.2]), turn, t2, abs_of_nonpos
          (Real.sin_nonpos_of_nonpos_of_neg_pi_le (by linarith) (by linarith)), neg_neg]
  · rw [if_neg c1, if_neg (by intro h; linarith [h.1]), abs_of_nonneg (Real.sin_nonneg_of_nonneg_of_le_pi h0 (by linarith))]

/-- **C140**, positive angles: the sine is right. -/
theorem C140_positive_partial (x0 : ℝ) (h : 0 < x0) : (mcoSine x0).2.1 = Real.sin x0 := by
  obtain ⟨-, -, h4⟩ := C140_angle x0
  rw [if_pos h] at h4
  rw [C140_exactly, if_neg (by intro h'; linarith [h'.1])]

/-- **C140**, one turn: the sine of an angle from minus one half turn on is right as well. -/
theorem C140_half_partial (x0 : ℝ) (h : -Real.pi ≤ x0) : (mcoSine x0).2.1 = Real.sin x0 := by
  have hp := Real.pi_pos
  rcases lt_or_ge 0 x0 with h0 | h0
  · exact C140_positive_partial x0 h0
  obtain ⟨⟨k, hk⟩, hl, h4⟩ := C140_angle x0
  have e : (mcoSine x0).1 = modulus x0 (4 * Real.pi) := by
    rw [mcoSine_eq]
    dsimp only
    rw [if_neg (by linarith)]
  obtain ⟨h1, h2, j, hj⟩ := C31_modulus x0 (4 * Real.pi) (by positivity)
  rw [C140_exactly, if_neg]
  rintro ⟨a, b⟩
  rw [e] at a b
  have j0 : (-1 : ℝ) < j ∧ (j : ℝ) < 0 := by
    constructor <;> nlinarith
  obtain ⟨j1, j2⟩ := j0
  have j3 : (-1 : ℤ) < j := by exact_mod_cast j1
  have j4 : j < 0 := by exact_mod_cast j2
  omega

/-- **C140 is violated**: the sine of -3π/2 is 1, the function returns -1. -/
theorem C140_violated : (mcoSine (-(3 * Real.pi / 2) : ℝ)).2.1 = -1 ∧ Real.sin (-(3 * Real.pi / 2)) = 1 := by
  have hp := Real.pi_pos
  have s : Real.sin (-(3 * Real.pi / 2)) = 1 := by
    rw [← Real.sin_add_two_pi, show -(3 * Real.pi / 2) + 2 * Real.pi = Real.pi / 2 by ring, Real.sin_pi_div_two]
  refine ⟨?_, s⟩
  have e : (mcoSine (-(3 * Real.pi / 2) : ℝ)).1 = 5 * Real.pi / 2 := by
    rw [mcoSine_eq]
    dsimp only
    rw [if_neg (by linarith)]
    have f : ⌊-(3 * Real.pi / 2) / (4 * Real.pi)⌋ = -1 := by
      rw [show -(3 * Real.pi / 2) / (4 * Real.pi) = -(3 / 8 : ℝ) by field_simp; norm_num]
      norm_num
    simp only [modulus, floor_real, f]
    push_cast
    ring
  rw [C140_exactly, e, if_pos ⟨by linarith, by linarith⟩, s]

/-- Seven radians, more than one turn. -/
example : (mcoSine (7 : ℝ)).2.1 = Real.sin 7 := C140_positive_partial 7 (by norm_num)

/-- Minus three radians. -/
example : (mcoSine (-3 : ℝ)).2.1 = Real.sin (-3) := C140_half_partial (-3) (by linarith [Real.pi_gt_three])

end Posidonius.Tools
