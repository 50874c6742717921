import Verif.Props.Tools

/-! # C32: the elliptic solver at the apsides, turn by turn and on both halves of the orbit -/

namespace Posidonius.Tools
open Posidonius

theorem modulus_unique {a b w : ℝ} (hb : 0 < b) (h0 : 0 ≤ w) (h1 : w < b) (k : ℤ) (h : a = w + k * b) : modulus a b = w := by
  have f : ⌊a / b⌋ = k := by
    rw [Int.floor_eq_iff, le_div_iff₀ hb, div_lt_iff₀ hb]
    constructor <;> nlinarith
  simp only [modulus, floor_real, f]
  linarith

/-- **C32, turns**: mean anomalies that are not negative and differ by whole turns have the same solution. -/
theorem C32_turns_partial (e m : ℝ) (hm : 0 ≤ m) (k : ℕ) : keplerEllipse e (m + k * (2 * Real.pi)) = keplerEllipse e m := by
  have hp := Real.pi_pos
  have hm' : 0 ≤ m + k * (2 * Real.pi) := by positivity
  obtain ⟨h1, h2, j, hj⟩ := C31_modulus m (2 * Real.pi) (by positivity)
  have e1 : modulus (m + k * (2 * Real.pi)) (2 * Real.pi) = modulus m (2 * Real.pi) :=
    modulus_unique (by positivity) h1 h2 (j + k) (by push_cast; linarith)
  simp only [keplerEllipse, reduceMeanAnomaly, twoPi_real, leb_real, lit_real, Rat.cast_zero, hm, hm', if_true, e1]

/-- **C32, halves of the orbit**: the solution on the way back is the opposite of the one on the way out. -/
theorem C32_mirror_partial (e m : ℝ) (h0 : 0 < m) (h1 : m < Real.pi) :
    keplerEllipse e (2 * Real.pi - m) = -keplerEllipse e m := by
  have hp := Real.pi_pos
  have e1 : modulus m (2 * Real.pi) = m := modulus_unique (by positivity) h0.le (by linarith) 0 (by simp)
  have e2 : modulus (2 * Real.pi - m) (2 * Real.pi) = 2 * Real.pi - m :=
    modulus_unique (by positivity) (by linarith) (by linarith) 0 (by simp)
  have g1 : 0 ≤ 2 * Real.pi - m := by linarith
  have g2 : Real.pi < 2 * Real.pi - m := by linarith
  have g3 : ¬ Real.pi < m := by linarith
  have g4 : 2 * Real.pi - (2 * Real.pi - m) = m := by ring
  simp only [keplerEllipse, reduceMeanAnomaly, twoPi_real, pi_real', leb_real, ltb_real, lit_real, Rat.cast_zero, Rat.cast_one,
    h0.le, g1, g2, g3, e1, e2, if_true, if_false, g4, neg_one_mul, one_mul]

/-- **C32, apoapsis**: for every eccentricity the solution for half a turn, after whole turns, is exactly half a turn. -/
theorem C32_apoapsis_partial (e : ℝ) (he : 0 ≤ e) (k : ℕ) : keplerEllipse e (Real.pi + k * (2 * Real.pi)) = Real.pi := by
  have hp := Real.pi_pos
  have h3 := Real.pi_gt_three
  rw [C32_turns_partial e _ hp.le]
  have e1 : modulus Real.pi (2 * Real.pi) = Real.pi := modulus_unique (by positivity) hp.le (by linarith) 0 (by simp)
  have u : keplerStart e Real.pi = Real.pi := by
    have c1 : ((0.45 : ℚ) : ℝ) ≤ Real.pi := by push_cast; linarith
    have c2 : ¬ Real.pi < 1 - e := by linarith
    have c3 : Real.pi - 1 - e < Real.pi := by linarith
    have c4 : (Real.pi + e * Real.pi) / (1 + e) = Real.pi := by
      have : 1 + e ≠ 0 := by linarith
      field_simp
    have c5 : 1 / 2 * Real.pi < Real.pi := by linarith
    have b1 : leb (lit 0.45 : ℝ) Real.pi = true := by rw [leb_real, lit_real]; exact c1
    unfold keplerStart
    simp only [b1, Bool.true_or, if_true]
    simp only [ltb_real, pi_real', lit_real, Rat.cast_one, c2, c3, if_true, if_false, c4]
    push_cast
    simp only [c5, if_true, sub_self]
    simp
  have s : sinCosDefects Real.pi = (Real.pi, 2) := by
    have c5 : 1 / 2 * Real.pi < Real.pi := by linarith
    have c6 : ¬ (1 / 2 * (1 / 2 * Real.pi) < 0) := by nlinarith
    simp only [sinCosDefects, ltb_real, pi_real', lit_real, seriesSS, seriesCC]
    push_cast
    simp only [c5, if_true, sub_self, c6, if_false]
    norm_num
    ring
  have g : ¬ Real.pi < Real.pi := lt_irrefl _
  simp only [keplerEllipse, reduceMeanAnomaly, twoPi_real, pi_real', leb_real, ltb_real, lit_real, Rat.cast_zero, Rat.cast_one,
    hp.le, g, e1, if_true, if_false, one_mul, keplerFinish, u, s]
  have z : Real.pi - Real.pi * (1 - e) - e * Real.pi = 0 := by ring
  simp [z]

/-- **C32, periapsis**: for eccentricities from 0.55 on the solution for zero, after whole turns, is exactly zero. -/
theorem C32_periapsis_partial (e : ℝ) (he : 11 / 20 ≤ e) (k : ℕ) : keplerEllipse e (k * (2 * Real.pi)) = 0 := by
  have hp := Real.pi_pos
  have t := C32_turns_partial e 0 le_rfl k
  rw [zero_add] at t
  rw [t]
  have e1 : modulus (0 : ℝ) (2 * Real.pi) = 0 := modulus_unique (by positivity) le_rfl (by linarith) 0 (by simp)
  have u : keplerStart e 0 = 0 := by
    have b1 : leb (lit 0.45 : ℝ) 0 = false := by rw [leb_real_false, lit_real]; norm_num
    have b2 : ltb e (lit 0.55 : ℝ) = false := by rw [ltb_real_false, lit_real]; push_cast; linarith
    unfold keplerStart
    simp only [b1, b2, Bool.or_false, Bool.false_eq_true, if_false]
    simp
  have s : sinCosDefects (0 : ℝ) = (0, 0) := by
    have c5 : ¬ 1 / 2 * Real.pi < 0 := by linarith
    have c6 : ¬ (1 / 2 * (1 / 2 * Real.pi) < 0) := by linarith
    simp only [sinCosDefects, ltb_real, pi_real', lit_real, seriesSS, seriesCC]
    push_cast
    simp only [c5, if_false, c6]
    norm_num
  have g : ¬ Real.pi < 0 := by linarith
  simp only [keplerEllipse, reduceMeanAnomaly, twoPi_real, pi_real', leb_real, ltb_real, lit_real, Rat.cast_zero, Rat.cast_one,
    le_refl, g, e1, if_true, if_false, one_mul, keplerFinish, u, s]
  simp

/-- Eccentricity 9/10: Kepler's equation holds exactly at the apoapsis of the third turn. -/
example : let E := keplerEllipse (9 / 10) (Real.pi + (2 : ℕ) * (2 * Real.pi));
    E - 9 / 10 * Real.sin E + 2 * (2 * Real.pi) = Real.pi + 2 * (2 * Real.pi) := by
  simp only [C32_apoapsis_partial (9 / 10) (by norm_num) 2, Real.sin_pi]
  ring

end Posidonius.Tools
