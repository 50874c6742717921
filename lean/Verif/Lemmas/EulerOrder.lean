import Mathlib.Algebra.Order.Ring.Pow
import Verif.Lemmas.LeapfrogOrder

/-! The error of steps of Euler against a solution of x' = F(x), and how big it is for x' = -x. -/

namespace Posidonius.Order
open Set

variable {E : Type} [NormedAddCommGroup E] [NormedSpace ℝ E] {F : E → E} {X : ℝ → E} {K M T : ℝ}

/-- The error of one step. -/
theorem euler_step (hF : ∀ x y, ‖F x - F y‖ ≤ K * ‖x - y‖) (K0 : 0 ≤ K) (hX : ∀ t ∈ Icc 0 T, HasDerivAt X (F (X t)) t)
    (hM : ∀ t ∈ Icc 0 T, ‖F (X t)‖ ≤ M) {t h : ℝ} (ht : 0 ≤ t) (h0 : 0 ≤ h) (hT : t + h ≤ T) (x : E) :
    ‖x + h • F x - X (t + h)‖ ≤ ‖x - X t‖ * (1 + K * h) + K * M * h ^ 2 := by
  have sub : ∀ s ∈ Icc t (t + h), s ∈ Icc 0 T := fun s hs => ⟨ht.trans hs.1, hs.2.trans hT⟩
  have le : t ≤ t + h := by linarith
  have M0 : 0 ≤ M := (norm_nonneg _).trans (hM t (sub t (left_mem_Icc.2 le)))
  have one := taylor0 (f := fun s => X s - (s - t) • F (X t)) (g := fun s => F (X s) - F (X t)) (M := K * M * h) le
    (fun s hs => by
      have := (hX s (sub s hs)).sub (((hasDerivAt_id' s).sub_const t).smul_const (F (X t)))
      exact this.congr_deriv (by simp))
    (fun s hs => by
      have a := taylor0 (f := X) (g := fun s => F (X s)) (M := M) hs.1
        (fun r hr => hX r (sub r ⟨hr.1, hr.2.trans hs.2⟩)) (fun r hr => hM r (sub r ⟨hr.1, hr.2.trans hs.2⟩))
      have b : M * (s - t) ≤ M * h := mul_le_mul_of_nonneg_left (by linarith [hs.2]) M0
      calc ‖F (X s) - F (X t)‖ ≤ K * ‖X s - X t‖ := hF _ _
        _ ≤ K * (M * h) := mul_le_mul_of_nonneg_left (a.trans b) K0
        _ = K * M * h := by ring)
  have e : (X (t + h) - (t + h - t) • F (X t)) - (X t - (t - t) • F (X t)) = X (t + h) - X t - h • F (X t) := by
    rw [sub_self, zero_smul, add_sub_cancel_left]; abel
  rw [e, add_sub_cancel_left] at one
  have d : x + h • F x - X (t + h) = (x - X t) + h • (F x - F (X t)) - (X (t + h) - X t - h • F (X t)) := by module
  rw [d]
  calc _ ≤ ‖(x - X t) + h • (F x - F (X t))‖ + ‖X (t + h) - X t - h • F (X t)‖ := norm_sub_le _ _
    _ ≤ (‖x - X t‖ + h * (K * ‖x - X t‖)) + K * M * h * h := by
      refine add_le_add ((norm_add_le _ _).trans (add_le_add_right ?_ _)) one
      rw [norm_smul, Real.norm_of_nonneg h0]
      exact mul_le_mul_of_nonneg_left (hF _ _) h0
    _ = _ := by ring

theorem euler_growth {h : ℝ} (K0 : 0 ≤ K) (h0 : 0 ≤ h) (j : ℕ) {e e' : ℝ} (he : e ≤ M * h * ((1 + K * h) ^ j - 1))
    (hs : e' ≤ e * (1 + K * h) + K * M * h ^ 2) : e' ≤ M * h * ((1 + K * h) ^ (j + 1) - 1) := by
  have := mul_le_mul_of_nonneg_right he (by positivity : 0 ≤ 1 + K * h)
  calc e' ≤ _ := hs
    _ ≤ M * h * ((1 + K * h) ^ j - 1) * (1 + K * h) + K * M * h ^ 2 := by linarith
    _ = _ := by ring

theorem euler_bound {h : ℝ} (K0 : 0 ≤ K) (M0 : 0 ≤ M) (h0 : 0 ≤ h) (j : ℕ) (hj : j * h ≤ T) :
    M * h * ((1 + K * h) ^ j - 1) ≤ M * Real.exp (K * T) * h := by
  have h1 : (1 + K * h) ^ j ≤ Real.exp (K * T) := by
    calc (1 + K * h) ^ j ≤ Real.exp (K * h) ^ j := by
          refine pow_le_pow_left₀ (by positivity) ?_ j
          linarith [Real.add_one_le_exp (K * h)]
      _ = Real.exp (j * (K * h)) := (Real.exp_nat_mul _ _).symm
      _ ≤ _ := Real.exp_le_exp.2 (by nlinarith)
  have : M * h * ((1 + K * h) ^ j - 1) ≤ M * h * Real.exp (K * T) :=
    mul_le_mul_of_nonneg_left (by linarith) (by positivity)
  linarith

/-- A force with a saturation is Lipschitz. -/
theorem saturated_lipschitz {B S A : ℝ} (hB : 0 ≤ B) (hS : 0 ≤ S) (x y : E) :
    ‖(A * min (B ^ 2 * ‖x‖ ^ 2) (S ^ 2)) • x - (A * min (B ^ 2 * ‖y‖ ^ 2) (S ^ 2)) • y‖ ≤ 3 * |A| * S ^ 2 * ‖x - y‖ := by
  have key : ∀ x y : E, ‖x‖ ≤ ‖y‖ →
      ‖(A * min (B ^ 2 * ‖x‖ ^ 2) (S ^ 2)) • x - (A * min (B ^ 2 * ‖y‖ ^ 2) (S ^ 2)) • y‖ ≤ 3 * |A| * S ^ 2 * ‖x - y‖ := by
    intro x y hxy
    have tri : ‖y‖ - ‖x‖ ≤ ‖x - y‖ := by
      rw [← norm_neg (x - y), neg_sub]
      exact norm_sub_norm_le y x
    have nx := norm_nonneg x
    have ab : B * ‖x‖ ≤ B * ‖y‖ := mul_le_mul_of_nonneg_left hxy hB
    have a0 : 0 ≤ B * ‖x‖ := by positivity
    set a := B * ‖x‖ with ha
    set b := B * ‖y‖ with hb
    have ea : B ^ 2 * ‖x‖ ^ 2 = a ^ 2 := by rw [ha]; ring
    have eb : B ^ 2 * ‖y‖ ^ 2 = b ^ 2 := by rw [hb]; ring
    rw [ea, eb]
    have m0 : 0 ≤ min (b ^ 2) (S ^ 2) := le_min (sq_nonneg _) (sq_nonneg _)
    have m1 : min (b ^ 2) (S ^ 2) ≤ S ^ 2 := min_le_right _ _
    have m2 : |min (a ^ 2) (S ^ 2) - min (b ^ 2) (S ^ 2)| * ‖x‖ ≤ 2 * S ^ 2 * (‖y‖ - ‖x‖) := by
      have mono : min (a ^ 2) (S ^ 2) ≤ min (b ^ 2) (S ^ 2) := min_le_min (by nlinarith) le_rfl
      rw [abs_of_nonpos (by linarith), neg_sub]
      rcases le_total S a with hs | hs
      · rw [min_eq_right (by nlinarith), min_eq_right (by nlinarith), sub_self, zero_mul]
        exact mul_nonneg (by positivity) (by linarith)
      · rw [min_eq_left (by nlinarith : a ^ 2 ≤ S ^ 2)]
        have up : min (b ^ 2) (S ^ 2) - a ^ 2 ≤ 2 * S * (b - a) := by
          rcases le_total b S with h1 | h1
          · rw [min_eq_left (by nlinarith : b ^ 2 ≤ S ^ 2)]
            nlinarith
          · rw [min_eq_right (by nlinarith : S ^ 2 ≤ b ^ 2)]
            nlinarith
        have e1 : (b - a) * ‖x‖ = a * (‖y‖ - ‖x‖) := by rw [ha, hb]; ring
        calc _ ≤ 2 * S * (b - a) * ‖x‖ := mul_le_mul_of_nonneg_right up nx
          _ = 2 * S * a * (‖y‖ - ‖x‖) := by rw [mul_assoc, e1]; ring
          _ ≤ 2 * S ^ 2 * (‖y‖ - ‖x‖) := mul_le_mul_of_nonneg_right (by nlinarith) (by linarith)
    have d : (A * min (a ^ 2) (S ^ 2)) • x - (A * min (b ^ 2) (S ^ 2)) • y
        = (A * (min (a ^ 2) (S ^ 2) - min (b ^ 2) (S ^ 2))) • x + (A * min (b ^ 2) (S ^ 2)) • (x - y) := by module
    rw [d]
    have n0 := norm_nonneg (x - y)
    calc _ ≤ _ := norm_add_le _ _
      _ = |A| * (|min (a ^ 2) (S ^ 2) - min (b ^ 2) (S ^ 2)| * ‖x‖) + |A| * min (b ^ 2) (S ^ 2) * ‖x - y‖ := by
        rw [norm_smul, norm_smul, Real.norm_eq_abs, Real.norm_eq_abs, abs_mul, abs_mul, abs_of_nonneg m0]
        ring
      _ ≤ |A| * (2 * S ^ 2 * ‖x - y‖) + |A| * S ^ 2 * ‖x - y‖ := by
        have h1 := m2.trans (mul_le_mul_of_nonneg_left tri (by positivity : 0 ≤ 2 * S ^ 2))
        have h2 := mul_le_mul_of_nonneg_left h1 (abs_nonneg A)
        have h3 := mul_le_mul_of_nonneg_right (mul_le_mul_of_nonneg_left m1 (abs_nonneg A)) n0
        linarith
      _ = _ := by ring
  rcases le_total ‖x‖ ‖y‖ with h | h
  · exact key x y h
  · rw [norm_sub_rev, norm_sub_rev x y]
    exact key y x h

/-- Steps of Euler for x' = -x fall behind the exponential by a first order. -/
theorem euler_behind {x : ℝ} {j : ℕ} (h0 : 0 ≤ x) (h1 : j * x ≤ 1 / 5) (h2 : x ≤ 1 / 5) :
    j * x ^ 2 / 5 ≤ Real.exp (-(j * x)) - (1 - x) ^ j := by
  have hb : 0 < 1 - x := by linarith
  have a1 : 1 - x + x ^ 2 / 4 ≤ Real.exp (-x) := by
    have := Real.add_one_le_exp (-(x / 2))
    have e : Real.exp (-x) = Real.exp (-(x / 2)) ^ 2 := by rw [← Real.exp_nat_mul]; congr 1; push_cast; ring
    rw [e]
    nlinarith
  have low : 4 / 5 ≤ (1 - x) ^ j := by
    have := one_add_mul_le_pow (a := -x) (by linarith) j
    rw [show 1 + -x = 1 - x by ring] at this
    linarith
  have e : Real.exp (-(j * x)) = Real.exp (-x) ^ j := by rw [← Real.exp_nat_mul]; congr 1; ring
  have b1 : (1 - x) ^ j * (1 + j * (x ^ 2 / 4)) ≤ Real.exp (-x) ^ j := by
    have q0 : 0 ≤ x ^ 2 / 4 / (1 - x) := by positivity
    have := one_add_mul_le_pow (a := x ^ 2 / 4 / (1 - x)) (by linarith) j
    have b2 : 1 + j * (x ^ 2 / 4) ≤ 1 + j * (x ^ 2 / 4 / (1 - x)) := by
      have : x ^ 2 / 4 ≤ x ^ 2 / 4 / (1 - x) := by
        rw [le_div_iff₀ hb]
        nlinarith [sq_nonneg x]
      have := mul_le_mul_of_nonneg_left this (Nat.cast_nonneg (α := ℝ) j)
      linarith
    calc _ ≤ (1 - x) ^ j * (1 + x ^ 2 / 4 / (1 - x)) ^ j :=
          mul_le_mul_of_nonneg_left (b2.trans this) (by positivity)
      _ = (1 - x + x ^ 2 / 4) ^ j := by rw [← mul_pow]; congr 1; field_simp
      _ ≤ _ := pow_le_pow_left₀ (by positivity) a1 j
  rw [e]
  have hj : (0 : ℝ) ≤ j * (x ^ 2 / 4) := by positivity
  nlinarith

end Posidonius.Order
